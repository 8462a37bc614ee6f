import Mathlib.LinearAlgebra.Matrix.Notation
import Mathlib.Tactic.NormNum
import Verif.Lemmas.SmeftTransLemmas

/-! C34, C35, C36, C61: translators between SMEFT bases. -/

set_option autoImplicit false

namespace Verif

open Spec

/-- **C34**. `warsaw` and `up` are the coefficient names of the two bases: Warsaw lists only independent entries,
Warsaw up at least all of them. `C1'` is the intermediate coefficient set, possibly with zeros dropped or added. -/
theorem C34_round_trip (ckm : ℝ → ℝ → ℝ → ℝ → M3) (default : Par) (par : Option Par) (V : M3)
    (hV : ckmOf ckm (withPar default par) = .ok V) (hunit : V.conjTranspose * V = 1) (warsaw up : List String)
    (hwarsaw : ∀ key ∈ warsaw, ∃ k op i, IsEntry key k op i ∧ Indep op i)
    (hup : ∀ k op i, IsOp k op → Indep op i → label k i ∈ up)
    (C : Dict String ℂ) (hw : Dict.WF C) (hC : ∀ key ∈ Dict.keys C, key ∈ warsaw)
    (hreal : ∀ key k op i, IsEntry key k op i → IsReal op i → (Dict.getD C key 0).im = 0) :
    ∃ C1, warsawToWarsawUp ckm up default C par = .ok C1 ∧ (∀ key ∈ Dict.keys C1, key ∈ up) ∧
      ∀ C1', Dict.WF C1' → (∀ key ∈ Dict.keys C1', IsFlat key) →
        (∀ key, Dict.getD C1' key 0 = Dict.getD C1 key 0) →
        ∃ C2, warsawUpToWarsaw ckm warsaw default C1' par = .ok C2 ∧
          ∀ key, Dict.getD C2 key 0 = Dict.getD C key 0 := by
  have hflat : ∀ key ∈ Dict.keys C, IsFlat key := fun key hk => by
    obtain ⟨k, op, i, h, -⟩ := hwarsaw key (hC key hk)
    exact ⟨k, op, i, h⟩
  obtain ⟨C1, h1, -, hk1, hv1⟩ := rotateWarsaw_spec (fun V => V.conjTranspose) ckm up default C par V hV hw hflat
  refine ⟨C1, h1, fun key hk => (hk1 key hk).1, fun C1' hw1 hf1 hg => ?_⟩
  obtain ⟨C2, h2, -, hk2, hv2⟩ := rotateWarsaw_spec (fun V => V) ckm warsaw default C1' par V hV hw1 hf1
  refine ⟨C2, h2, fun key => ?_⟩
  have hzero : ∀ {d : Dict String ℂ}, key ∉ Dict.keys d → Dict.getD d key 0 = 0 := fun h => by
    simp [Dict.getD, Dict.find_eq_none_iff.2 h]
  by_cases hkey : key ∈ warsaw
  · obtain ⟨k, op, i, he, hi⟩ := hwarsaw key hkey
    rw [hv2 key k op i he, if_pos hkey]
    -- the completed, rotated array
    have hcomp : complete op (arrOf op (entries C1' k)) =
        rotated op (Rot.mk V.conjTranspose 1 1 1 1).fld (complete op (arrOf op (entries C k))) := by
      have hsh : HasShape op (arrOf op (entries C k)) := IsArr.shape ⟨_, rfl⟩
      refine complete_indep ((complete_conforms hsh).rotated _) ((IsArr.complete ⟨_, rfl⟩).rotated _) fun j hj => ?_
      change Dict.getD C1' (label k j) 0 = _
      rw [hg, hv1 _ k op j ⟨he.1, indep_length hj, rfl⟩, if_pos (hup k op j he.1 hj)]
    rw [hcomp, rotated_comp]
    have : (fun f => (Rot.mk V.conjTranspose 1 1 1 1).fld f * (Rot.mk V 1 1 1 1).fld f) = fun _ => (1 : M3) := by
      funext f; cases f <;> simp [Rot.fld, hunit]
    rw [this, rotated_one, complete_keep hi ?_]
    · rw [he.2.2]; rfl
    · intro hr
      have := hreal key k op i he hr
      rw [he.2.2] at this
      exact this
  · rw [hzero fun h => hkey (hk2 key h).1, hzero fun h => hkey (hC key h)]

/-- **C34** without a step in between. -/
theorem C34_identity (ckm : ℝ → ℝ → ℝ → ℝ → M3) (default : Par) (par : Option Par) (V : M3)
    (hV : ckmOf ckm (withPar default par) = .ok V) (hunit : V.conjTranspose * V = 1) (warsaw up : List String)
    (hwarsaw : ∀ key ∈ warsaw, ∃ k op i, IsEntry key k op i ∧ Indep op i)
    (hup : ∀ k op i, IsOp k op → Indep op i → label k i ∈ up)
    (C : Dict String ℂ) (hw : Dict.WF C) (hC : ∀ key ∈ Dict.keys C, key ∈ warsaw)
    (hreal : ∀ key k op i, IsEntry key k op i → IsReal op i → (Dict.getD C key 0).im = 0) :
    ∃ C1 C2, warsawToWarsawUp ckm up default C par = .ok C1 ∧ warsawUpToWarsaw ckm warsaw default C1 par = .ok C2 ∧
      ∀ key, Dict.getD C2 key 0 = Dict.getD C key 0 := by
  obtain ⟨C1, h1, -, h2⟩ := C34_round_trip ckm default par V hV hunit warsaw up hwarsaw hup C hw hC hreal
  have hflat : ∀ key ∈ Dict.keys C, IsFlat key := fun key hk => by
    obtain ⟨k, op, i, h, -⟩ := hwarsaw key (hC key hk)
    exact ⟨k, op, i, h⟩
  obtain ⟨C1', h1', hw1, hk1, -⟩ := rotateWarsaw_spec (fun V => V.conjTranspose) ckm up default C par V hV hw hflat
  obtain rfl : C1' = C1 := Except.ok.inj (h1'.symm.trans h1)
  obtain ⟨C2, h3, h4⟩ := h2 C1' hw1 (fun key hk => (hk1 key hk).2) fun _ => rfl
  exact ⟨C1', C2, h1, h3, h4⟩

/-- An orthogonal matrix without zeros. -/
noncomputable def exV : M3 := (1 / 3 : ℂ) • !![1, 2, 2; 2, 1, -2; 2, -2, 1]

theorem exV_unitary : exV.conjTranspose * exV = 1 := by
  ext i j
  fin_cases i <;> fin_cases j <;>
    simp [exV, Matrix.mul_apply, Fin.sum_univ_three, Complex.conj_ofNat] <;> norm_num

/-- All flat names. -/
def allFlat : List String := opTable.flatMap fun p => p.2.flatMap fun k => (idxs p.1).map (label k)

theorem mem_allFlat {k : String} {op : Op} {i : List (Fin 3)} (ho : IsOp k op) (hi : Indep op i) : label k i ∈ allFlat := by
  obtain ⟨ks, h1, h2⟩ := ho
  exact List.mem_flatMap.2 ⟨_, h1, List.mem_flatMap.2 ⟨k, h2, List.mem_map.2 ⟨i, mem_idxs.2 (indep_length hi), rfl⟩⟩⟩

/-- A case of C34: a single off-diagonal coefficient, mixed into the diagonal of the other basis. -/
example : ∃ C1 C2, warsawToWarsawUp (fun _ _ _ _ => exV) allFlat defaultPar [("phiq1_12", 1)] none = .ok C1 ∧
    warsawUpToWarsaw (fun _ _ _ _ => exV) ["phiq1_12"] defaultPar C1 none = .ok C2 ∧
    Dict.getD C1 "phiq1_11" 0 = 4 / 9 ∧ Dict.getD C2 "phiq1_12" 0 = 1 := by
  have hop : IsOp "phiq1" (.two (b .q) (n .q)) := by decide +kernel
  have hl : "phiq1_12" = label "phiq1" [0, 1] := by decide +kernel
  have hl1 : "phiq1_11" = label "phiq1" [0, 0] := by decide +kernel
  have hV : ckmOf (fun _ _ _ _ => exV) (withPar defaultPar none) = .ok exV := rfl
  have hE : IsEntry "phiq1_12" "phiq1" (.two (b .q) (n .q)) [0, 1] := ⟨hop, rfl, hl⟩
  obtain ⟨C1, C2, h1, h2, h3⟩ := C34_identity (fun _ _ _ _ => exV) defaultPar none exV hV exV_unitary ["phiq1_12"] allFlat
    (by
      intro key hk
      obtain rfl := List.mem_singleton.1 hk
      exact ⟨"phiq1", _, [0, 1], hE, fun c _ => by decide⟩)
    (fun k op i => mem_allFlat) [("phiq1_12", 1)] (by simp [Dict.WF, Dict.keys]) (by simp [Dict.keys])
    (by
      intro key k op i he hr
      simp only [Dict.getD, Dict.find_cons]
      split <;> simp)
  refine ⟨C1, C2, h1, h2, ?_, by rw [h3]; rfl⟩
  obtain ⟨C1', h1', -, -, hv⟩ := rotateWarsaw_spec (fun V => V.conjTranspose) (fun _ _ _ _ => exV) allFlat defaultPar
    [("phiq1_12", 1)] none exV hV (by simp [Dict.WF, Dict.keys]) (by
      intro key hk
      obtain rfl : key = "phiq1_12" := by simpa [Dict.keys] using hk
      exact ⟨_, _, _, hE⟩)
  obtain rfl : C1' = C1 := Except.ok.inj (h1'.symm.trans h1)
  rw [hv "phiq1_11" "phiq1" _ [0, 0] ⟨hop, rfl, hl1⟩, if_pos (hl1 ▸ mem_allFlat hop fun _ _ => by decide)]
  have hc : cls2 (b .q) (n .q) = some .herm := by decide
  have hent : ∀ p r : Fin 3, entries [("phiq1_12", (1 : ℂ))] "phiq1" [p, r] = if p = 0 ∧ r = 1 then 1 else 0 := by
    intro p r
    unfold entries Dict.getD
    rw [hl, Dict.find_cons]
    dsimp only
    by_cases h : p = 0 ∧ r = 1
    · rw [h.1, h.2]; simp
    · rw [if_neg h, if_neg fun e => h ?_]
      · rfl
      · have := (label_inj (isOp_plain hop) (isOp_plain hop) e).2
        simp only [List.cons.injEq, and_true] at this
        exact ⟨this.1.symm, this.2.symm⟩
  -- the completed matrix
  have hsym : ∀ p r : Fin 3, sym2 .herm (fun i => entries [("phiq1_12", (1 : ℂ))] "phiq1" [i.1, i.2]) (p, r) =
      if (p = 0 ∧ r = 1) ∨ (p = 1 ∧ r = 0) then 1 else 0 := by
    intro p r
    have hrel := (C29_matrix fun i : Ix2 => entries [("phiq1_12", (1 : ℂ))] "phiq1" [i.1, i.2]).1
    rcases le_total p r with h | h
    · rw [C31_matrix_free _ _ (p, r) h]
      simp only [hent]
      revert h; fin_cases p <;> fin_cases r <;> simp [Real2]
    · have e : sym2 .herm (fun i => entries [("phiq1_12", (1 : ℂ))] "phiq1" [i.1, i.2]) (p, r) = _ := hrel r p
      rw [e]
      change (starRingEnd ℂ) (sym2 .herm _ (r, p)) = _
      rw [C31_matrix_free _ _ (r, p) h]
      simp only [hent]
      revert h; fin_cases p <;> fin_cases r <;> simp [Real2]
  simp only [complete, arrOf, rotated, Arr.fn, hc, Option.elim, rot2, hsym]
  simp [Fin.sum_univ_three, Slot.mat, Rot.fld, b, n, exV, Complex.conj_ofNat]
  norm_num

/-! ### C35 -/

/-- **C35**: from flat names to arrays and back. Every given value is kept, all other values are zero. -/
theorem C35_flat (d : Dict String ℂ) (hw : Dict.WF d) (hd : ∀ key ∈ Dict.keys d, IsFlat key) :
    ∃ A, wcxf2arrays d = .ok A ∧ (∀ key ∈ Dict.keys d, Dict.find (arrays2wcxf A) key = Dict.find d key) ∧
      ∀ key v, Dict.find (arrays2wcxf A) key = some v → key ∉ Dict.keys d → v = 0 := by
  obtain ⟨A, h1, hA⟩ := wcxf2arrays_spec d hw hd
  have hval : ∀ key k op i, IsEntry key k op i → ∀ f, Dict.find A k = some (arrOf op f) → f i = Dict.getD d key 0 := by
    rintro key k op i ⟨ho, hi, rfl⟩ f hf
    by_cases hex : ∃ i, i.length = op.rank ∧ label k i ∈ Dict.keys d
    · rw [hA.some k op ho hex] at hf
      have := congrArg (fun a => Arr.fn a i) (Option.some.inj hf)
      simp only [fn_arrOf hi] at this
      exact this.symm
    · rw [hA.none k op ho hex] at hf; simp at hf
  refine ⟨A, h1, fun key hk => ?_, fun key v hv hn => ?_⟩
  · obtain ⟨k, op, i, ho, hi, rfl⟩ := hd key hk
    obtain ⟨v, hv⟩ := Option.isSome_iff_exists.1 (Dict.find_isSome_iff.2 hk)
    rw [hv]
    refine (arrays2wcxf_mem hA.proper).2 ⟨k, op, i, entries d k, ⟨ho, hi, rfl⟩, hA.some k op ho ⟨i, hi, hk⟩, ?_⟩
    simp [entries, Dict.getD, hv]
  · obtain ⟨k, op, i, f, he, hf, rfl⟩ := (arrays2wcxf_mem hA.proper).1 hv
    rw [hval key k op i he f hf, Dict.getD, Dict.find_eq_none_iff.2 hn]
    rfl

/-- **C35**: from arrays to flat names and back. -/
theorem C35_arrays (A : Dict String Arr) (hA : Proper A) :
    ∃ A', wcxf2arrays (arrays2wcxf A) = .ok A' ∧ ∀ k, Dict.find A' k = Dict.find A k := by
  have hkeys : ∀ key ∈ Dict.keys (arrays2wcxf A), IsFlat key := fun key hk => by
    obtain ⟨k, op, i, he, -⟩ := (arrays2wcxf_keys hA).1 hk
    exact ⟨k, op, i, he⟩
  obtain ⟨A', h1, hA'⟩ := wcxf2arrays_spec _ (arrays2wcxf_wf A) hkeys
  refine ⟨A', h1, fun k => ?_⟩
  by_cases ho : ∃ op, IsOp k op
  · obtain ⟨op, ho⟩ := ho
    have hlen : ∃ i : List (Fin 3), i.length = op.rank := ⟨List.replicate op.rank 0, by simp⟩
    cases hf : Dict.find A k with
    | none =>
      refine hA'.none k op ho ?_
      rintro ⟨i, hi, hm⟩
      obtain ⟨k', op', i', ⟨ho', -, e⟩, hk⟩ := (arrays2wcxf_keys hA).1 hm
      obtain ⟨rfl, rfl⟩ := label_inj (isOp_plain ho) (isOp_plain ho') e
      exact Dict.find_eq_none_iff.1 hf hk
    | some a =>
      obtain ⟨f, rfl⟩ := hA.arr k op a ho hf
      have hk : k ∈ Dict.keys A := Dict.find_isSome_iff.1 (by rw [hf]; rfl)
      obtain ⟨i0, hi0⟩ := hlen
      rw [hA'.some k op ho ⟨i0, hi0, (arrays2wcxf_keys hA).2 ⟨k, op, i0, ⟨ho, hi0, rfl⟩, hk⟩⟩]
      congr 1
      refine arrOf_congr fun i hi => ?_
      unfold entries Dict.getD
      rw [(arrays2wcxf_mem hA).2 ⟨k, op, i, f, ⟨ho, hi, rfl⟩, hf, rfl⟩]
      rfl
  · rw [Dict.find_eq_none_iff.2 fun h => ho (hA'.ops k h), Dict.find_eq_none_iff.2 fun h => ho (hA.ops k h)]

/-- **C35**: a name that belongs neither to an operator nor to a Standard Model parameter raises KeyError (the
names before it being in order). -/
theorem C35_unknown (d1 d2 : Dict String ℂ) (key : String) (v : ℂ) (hw : Dict.WF d1)
    (hd : ∀ key ∈ Dict.keys d1, IsFlat key) (h : headPart key ∉ wcKeys ++ smKeys) :
    wcxf2arrays (d1 ++ (key, v) :: d2) = .error .keyError := by
  obtain ⟨A, h1, -⟩ := wcxf2arrays_spec d1 hw hd
  unfold wcxf2arrays at h1 ⊢
  rw [List.foldlM_append, h1, ok_bind, List.foldlM_cons]
  have hkeys : ∀ k ∈ Dict.keys shapeTable, k ∈ wcKeys ++ smKeys := by decide +kernel
  have : Dict.get shapeTable (headPart key) = .error .keyError := by
    rw [Dict.get_error_iff, Dict.find_eq_none_iff]
    exact ⟨fun hm => h (hkeys _ hm), rfl⟩
  have hs : wcxf2arraysStep A (key, v) = .error .keyError := by
    unfold wcxf2arraysStep
    dsimp only
    rw [this]; rfl
  rw [hs]; rfl

theorem foldlM_append_ok {d1 d2 : Dict String ℂ} {s A : Dict String Arr}
    (h : (d1 ++ d2).foldlM wcxf2arraysStep s = .ok A) :
    ∃ A1, d1.foldlM wcxf2arraysStep s = .ok A1 ∧ d2.foldlM wcxf2arraysStep A1 = .ok A := by
  rw [List.foldlM_append] at h
  cases h1 : d1.foldlM wcxf2arraysStep s with
  | error e => rw [h1] at h; cases h
  | ok A1 => rw [h1] at h; exact ⟨A1, rfl, h⟩

/-- **C35**: conversely, if the conversion succeeds every name belongs to an operator or to a parameter. -/
theorem C35_known (d : Dict String ℂ) (A : Dict String Arr) (h : wcxf2arrays d = .ok A) (key : String)
    (hk : key ∈ Dict.keys d) : headPart key ∈ wcKeys ++ smKeys := by
  obtain ⟨⟨key', v⟩, hp, rfl⟩ := List.mem_map.1 hk
  obtain ⟨d1, d2, rfl⟩ := List.append_of_mem hp
  obtain ⟨A1, -, h2⟩ := foldlM_append_ok h
  rw [List.foldlM_cons] at h2
  cases h3 : wcxf2arraysStep A1 (key', v) with
  | error e => rw [h3] at h2; cases h2
  | ok A2 =>
    unfold wcxf2arraysStep at h3
    dsimp only at h3
    cases h4 : Dict.get shapeTable (headPart key') with
    | error e => rw [h4] at h3; cases h3
    | ok s =>
      have hkeys : ∀ k ∈ Dict.keys shapeTable, k ∈ wcKeys ++ smKeys := by decide +kernel
      exact hkeys _ (Dict.find_isSome_iff.1 (by rw [Dict.get_ok_iff.1 h4]; rfl))

/-- A case of C35. -/
example : IsFlat "ll_1122" ∧ IsFlat "phiWB" ∧ headPart "foo_11" ∉ wcKeys ++ smKeys := by
  refine ⟨⟨"ll", .four (b .l) (n .l) (b .l) (n .l), [0, 0, 1, 1], ?_, rfl, by decide +kernel⟩,
    ⟨"phiWB", .boson, [], ?_, rfl, rfl⟩, by decide +kernel⟩ <;> decide +kernel

/-! ### C36 -/

theorem toarray_fold {name : String} {op : Op} (ho : IsOp name op) (hb : op ≠ .boson) (d : Dict String ℂ) (hw : Dict.WF d)
    (hd : ∀ key ∈ Dict.keys d, headPart key = name → ∃ i, i.length = op.rank ∧ key = label name i) :
    d.foldlM (toarrayStep name) (opShape op).zeros = .ok (arrOf op (entries d name)) := by
  have hp := isOp_plain ho
  induction d using List.reverseRecOn with
  | nil => rw [zeros_eq hb]; rfl
  | append_singleton d p ih =>
    obtain ⟨key, v⟩ := p
    have hk : Dict.keys (d ++ [(key, v)]) = Dict.keys d ++ [key] := by simp [Dict.keys]
    rw [Dict.WF, hk, List.nodup_append] at hw
    have hnot : key ∉ Dict.keys d := fun hm => hw.2.2 _ hm _ (by simp) rfl
    rw [List.foldlM_append, ih hw.1 fun key' hm => hd key' (by rw [hk]; simp [hm]), ok_bind, List.foldlM_cons]
    by_cases hh : headPart key = name
    · obtain ⟨i, hi, rfl⟩ := hd key (by rw [hk]; simp) hh
      have hne : ∃ j js, i = j :: js := by
        cases i with
        | nil => cases op <;> simp_all [Op.rank]
        | cons j js => exact ⟨j, js, rfl⟩
      obtain ⟨j, js, rfl⟩ := hne
      have : toarrayStep name (arrOf op (entries d name)) (label name (j :: js), v) =
          .ok (arrOf op (entries (d ++ [(label name (j :: js), v)]) name)) := by
        unfold toarrayStep
        rw [if_neg (by simp [hh]), lastPart_label, setInd_arrOf hb _ _ hi, entries_append hp hnot name hp, if_pos rfl]
      rw [this]; rfl
    · have : toarrayStep name (arrOf op (entries d name)) (key, v) = .ok (arrOf op (entries d name)) := by
        unfold toarrayStep
        rw [if_pos hh]
      rw [this, ok_bind]
      have he : entries (d ++ [(key, v)]) name = entries d name := by
        funext j
        have hne : key ≠ label name j := by rintro rfl; exact hh (headPart_label hp j)
        simp [entries, Dict.getD, Dict.find_append, hne, Dict.find]
      rw [he]; rfl

theorem toarray_spec {name : String} {op : Op} (ho : IsOp name op) (hb : op ≠ .boson) (d : Dict String ℂ) (hw : Dict.WF d)
    (hd : ∀ key ∈ Dict.keys d, headPart key = name → ∃ i, i.length = op.rank ∧ key = label name i) :
    smeftToarray name d = .ok (complete op (arrOf op (entries d name))) := by
  have hA : Proper [(name, arrOf op (entries d name))] := by
    refine ⟨by simp [Dict.WF, Dict.keys], ?_, ?_⟩
    · intro k hk
      obtain rfl : k = name := by simpa [Dict.keys] using hk
      exact ⟨op, ho⟩
    · intro k op' a ho' hf
      rw [Dict.find_cons] at hf
      dsimp only at hf
      split at hf
      · next h =>
        subst h
        obtain rfl := isOp_unique ho ho'
        exact ⟨_, (Option.some.inj hf).symm⟩
      · cases hf
  obtain ⟨A', h1, -, h2⟩ := symmetrize_proper hA
  unfold smeftToarray
  rw [shape_of_op ho, ok_bind, toarray_fold ho hb d hw hd, ok_bind, h1, ok_bind]
  refine Dict.get_of_find ?_
  rw [h2 name op ho]
  simp [Dict.find_cons]

theorem fromarray_wf (name : String) (a : Arr) : Dict.WF (smeftFromarray name a) := Dict.WF_ofPairs _

theorem fromarray_find {name : String} {op : Op} (ho : IsOp name op) {a : Arr} (ha : IsArr op a) {i : List (Fin 3)}
    (hi : i.length = op.rank) : Dict.find (smeftFromarray name a) (label name i) = some (a.fn i) := by
  obtain ⟨f, rfl⟩ := ha
  have hw : Dict.WF (flatEntries name (arrOf op f)) := by
    unfold Dict.WF Dict.keys
    rw [flatEntries_arrOf, List.map_map]
    exact List.Nodup.map (fun i j e => (label_inj (isOp_plain ho) (isOp_plain ho) e).2) (idxs_nodup op)
  unfold smeftFromarray
  rw [Dict.find_ofPairs hw, fn_arrOf hi]
  refine Dict.find_of_mem hw ?_
  rw [flatEntries_arrOf]
  exact List.mem_map.2 ⟨i, mem_idxs.2 hi, rfl⟩

theorem fromarray_head {name : String} {op : Op} (ho : IsOp name op) {a : Arr} (ha : IsArr op a) {key : String}
    (hk : key ∈ Dict.keys (smeftFromarray name a)) : headPart key = name := by
  obtain ⟨f, rfl⟩ := ha
  unfold smeftFromarray Dict.ofPairs at hk
  rw [Dict.mem_keys_upd] at hk
  rcases hk with hk | hk
  · simp at hk
  · rw [flatEntries_arrOf] at hk
    obtain ⟨p, hp, rfl⟩ := List.mem_map.1 hk
    obtain ⟨i, -, rfl⟩ := List.mem_map.1 hp
    exact headPart_label (isOp_plain ho) i

/-- The operators that are multiplied by the CKM matrix. -/
def upNames : List String := ["uphi", "uG", "uW", "uB"]

theorem rotateU_spec {ckm : ℝ → ℝ → ℝ → ℝ → M3} {p : Par} {V : M3} (hV : ckmOf ckm p = .ok V) {C : Dict String ℂ}
    (hw : Dict.WF C) {name : String} (hn : IsOp name (.two (b .q) (n .u)))
    (hC : ∀ key ∈ Dict.keys C, headPart key = name → ∃ i, i.length = 2 ∧ key = label name i) (out : Dict String ℂ) :
    ∃ out', rotateU ckm p C out name = .ok out' ∧
      (∀ key, headPart key ≠ name → Dict.find out' key = Dict.find out key) ∧
      ∀ p r, Dict.find out' (label name [p, r]) = some (∑ s, V p s * entries C name [s, r]) := by
  have h1 := toarray_spec hn (by simp) C hw hC
  have hcls : cls2 (b .q) (n .u) = none := by decide
  have h2 : complete (.two (b .q) (n .u)) (arrOf (.two (b .q) (n .u)) (entries C name)) =
      .mat fun i => entries C name [i.1, i.2] := by simp only [complete, arrOf, hcls, Option.elim]
  rw [h2] at h1
  refine ⟨Dict.upd out (smeftFromarray name (.mat fun i => (V * Matrix.of fun x y => entries C name [x, y]) i.1 i.2)),
    ?_, ?_, ?_⟩
  · unfold rotateU
    rw [h1, ok_bind, hV, ok_bind]
    simp only [Matrix.conjTranspose_conjTranspose, Arr.onMat]
    rfl
  · intro key hk
    rw [Dict.find_upd (fromarray_wf _ _), Dict.find_eq_none_iff.2 fun hm => hk (fromarray_head hn (isArr_mat _) hm)]
    rfl
  · intro p r
    rw [Dict.find_upd (fromarray_wf _ _), fromarray_find hn (isArr_mat _) rfl]
    rfl

/-- **C36**. Entries of all other operators (and any other keys) are untouched, the four listed operators are
multiplied by the CKM matrix from the left, the dimension-five matrix (symmetric, given by its upper half) becomes
the diagonal matrix of its singular values. -/
theorem C36_frame (ckm : ℝ → ℝ → ℝ → ℝ → M3) (msvd : M3 → Fin 3 → ℝ) (default : Par) (par : Option Par) (V : M3)
    (hV : ckmOf ckm (withPar default par) = .ok V) (C : Dict String ℂ) (hw : Dict.WF C)
    (hC : ∀ key ∈ Dict.keys C, headPart key ∈ "llphiphi" :: upNames → ∃ i, i.length = 2 ∧ key = label (headPart key) i) :
    ∃ D, warsawToWarsawmass ckm msvd default C par = .ok D ∧
      (∀ key, headPart key ∉ "llphiphi" :: upNames → Dict.find D key = Dict.find C key) ∧
      (∀ name ∈ upNames, ∀ p r, Dict.find D (label name [p, r]) = some (∑ s, V p s * Dict.getD C (label name [s, r]) 0)) ∧
      ∀ p r, Dict.find D (label "llphiphi" [p, r]) = some (if p = r then
        (msvd (fun x y => Dict.getD C (label "llphiphi" (if x ≤ y then [x, y] else [y, x])) 0) p : ℂ) else 0) := by
  have hops : ∀ name ∈ upNames, IsOp name (.two (b .q) (n .u)) := by decide +kernel
  have hll : IsOp "llphiphi" (.two (n .l) (n .l)) := by decide +kernel
  have hC' : ∀ name ∈ "llphiphi" :: upNames, ∀ key ∈ Dict.keys C, headPart key = name →
      ∃ i, i.length = 2 ∧ key = label name i := by
    rintro name hn key hk rfl
    exact hC key hk hn
  have hu : ∀ name ∈ upNames, name ∈ "llphiphi" :: upNames := fun name h => List.mem_cons_of_mem _ h
  obtain ⟨o1, e1, f1, g1⟩ := rotateU_spec hV hw (hops "uphi" (by simp [upNames])) (hC' _ (by simp [upNames])) C
  obtain ⟨o2, e2, f2, g2⟩ := rotateU_spec hV hw (hops "uG" (by simp [upNames])) (hC' _ (by simp [upNames])) o1
  obtain ⟨o3, e3, f3, g3⟩ := rotateU_spec hV hw (hops "uW" (by simp [upNames])) (hC' _ (by simp [upNames])) o2
  obtain ⟨o4, e4, f4, g4⟩ := rotateU_spec hV hw (hops "uB" (by simp [upNames])) (hC' _ (by simp [upNames])) o3
  have hfold : ["uphi", "uG", "uW", "uB"].foldlM (rotateU ckm (withPar default par) C) C = .ok o4 := by
    simp only [List.foldlM_cons, List.foldlM_nil, e1, e2, e3, e4, ok_bind]
    rfl
  have h5 := toarray_spec hll (by simp) C hw (hC' "llphiphi" (by simp))
  have hcls : cls2 (n .l) (n .l) = some .symm := by decide
  set M : Ix2 → ℂ := sym2 .symm fun i => entries C "llphiphi" [i.1, i.2] with hM
  have hMval : (Matrix.of fun x y => M (x, y)) =
      fun x y => Dict.getD C (label "llphiphi" (if x ≤ y then [x, y] else [y, x])) 0 := by
    funext x y
    rw [Matrix.of_apply]
    by_cases h : x ≤ y
    · rw [if_pos h, hM, C31_matrix_free _ _ (x, y) h]; rfl
    · rw [if_neg h]
      have : M (x, y) = M (y, x) := (C29_matrix fun i : Ix2 => entries C "llphiphi" [i.1, i.2]).2 y x
      rw [this, hM, C31_matrix_free _ _ (y, x) (le_of_not_ge h)]; rfl
  have h6 : complete (.two (n .l) (n .l)) (arrOf (.two (n .l) (n .l)) (entries C "llphiphi")) = .mat M := by
    simp only [complete, arrOf, hcls, Option.elim, hM]
  rw [h6] at h5
  have hfin : ∀ key, headPart key ≠ "llphiphi" → ∀ a, IsArr (.two (n .l) (n .l)) a →
      Dict.find (Dict.upd o4 (smeftFromarray "llphiphi" a)) key = Dict.find o4 key := by
    intro key hk a ha
    rw [Dict.find_upd (fromarray_wf _ _), Dict.find_eq_none_iff.2 fun hm => hk (fromarray_head hll ha hm)]
    rfl
  refine ⟨Dict.upd o4 (smeftFromarray "llphiphi" (.mat fun i => if i.1 = i.2 then
      (msvd (Matrix.of fun x y => M (x, y)) i.1 : ℂ) else 0)), ?_, ?_, ?_, ?_⟩
  · unfold warsawToWarsawmass
    dsimp only
    rw [hfold, ok_bind, h5, ok_bind]
    rfl
  · intro key hk
    simp only [upNames, List.mem_cons, not_or, List.not_mem_nil, not_false_eq_true, and_true] at hk
    rw [hfin key hk.1 _ (isArr_mat _), f4 key hk.2.2.2.2, f3 key hk.2.2.2.1, f2 key hk.2.2.1, f1 key hk.2.1]
  · intro name hn p r
    have hh : headPart (label name [p, r]) = name := headPart_label (isOp_plain (hops name hn)) _
    rw [hfin _ (by rw [hh]; rintro rfl; revert hn; decide +kernel) _ (isArr_mat _)]
    simp only [upNames, List.mem_cons, List.not_mem_nil, or_false] at hn
    rcases hn with rfl | rfl | rfl | rfl
    · rw [f4 _ (by rw [hh]; decide), f3 _ (by rw [hh]; decide), f2 _ (by rw [hh]; decide)]; exact g1 p r
    · rw [f4 _ (by rw [hh]; decide), f3 _ (by rw [hh]; decide)]; exact g2 p r
    · rw [f4 _ (by rw [hh]; decide)]; exact g3 p r
    · exact g4 p r
  · intro p r
    rw [Dict.find_upd (fromarray_wf _ _), fromarray_find hll (isArr_mat _) rfl]
    simp only [Arr.fn, hMval]
    rfl

/-- A case of C36: the name with a foreign key beside it. -/
example : ∃ D, warsawToWarsawmass (fun _ _ _ _ => exV) (fun _ _ => 1) defaultPar [("uG_11", 1), ("G", 2)] none = .ok D ∧
    Dict.find D "G" = some 2 ∧ Dict.find D "uG_21" = some (2 / 3) := by
  have hp : Plain "uG" := by decide +kernel
  have hl : "uG_11" = label "uG" [0, 0] := by decide +kernel
  have hl' : "uG_21" = label "uG" [1, 0] := by decide +kernel
  obtain ⟨D, h1, h2, h3, -⟩ := C36_frame (fun _ _ _ _ => exV) (fun _ _ => 1) defaultPar none exV rfl
    [("uG_11", 1), ("G", 2)] (by simp [Dict.WF, Dict.keys]) (by
      intro key hk hh
      simp only [Dict.keys, List.map_cons, List.map_nil, List.mem_cons, List.not_mem_nil, or_false] at hk
      rcases hk with rfl | rfl
      · exact ⟨[0, 0], rfl, by rw [hl, headPart_label hp]⟩
      · exact absurd hh (by decide +kernel))
  refine ⟨D, h1, by rw [h2 "G" (by decide +kernel)]; rfl, ?_⟩
  rw [hl', h3 "uG" (by simp [upNames]) 1 0]
  have e : ∀ s : Fin 3, Dict.getD [("uG_11", (1 : ℂ)), ("G", 2)] (label "uG" [s, 0]) 0 = if s = 0 then 1 else 0 := by
    intro s
    unfold Dict.getD
    rw [Dict.find_cons, Dict.find_cons, hl]
    dsimp only
    by_cases h : s = 0
    · rw [h]; simp
    · rw [if_neg h, if_neg, if_neg]
      · rfl
      · intro h'
        have := congrArg headPart h'
        rw [headPart_label hp] at this
        revert this; decide +kernel
      · intro h'
        have := (label_inj hp hp h').2
        simp only [List.cons.injEq, and_true] at this
        exact h this.symm
  simp only [e]
  simp [exV]
  norm_num

/-! ### C61 -/

/-- **C61** is false: `uG_10` is accepted and stored as `uG_13`, and `uG_1` fills a whole row. -/
theorem C61_refuted : ¬ ∀ (d : Dict String ℂ) (A : Dict String Arr), wcxf2arrays d = .ok A →
    ∀ key ∈ Dict.keys d, headPart key ∈ wcKeys2f ++ wcKeys4f → IsFlat key := by
  intro h
  have h1 : wcxf2arrays [("uG_10", (1 : ℂ))] = .ok [("uG", .mat fun i => if i = (0, 2) then 1 else 0)] := by
    have hs : (Arr.mat fun _ => 0).setInd (lastPart "uG_10") 1 = .ok (.mat fun i : Ix2 => if i = (0, 2) then 1 else 0) := by
      have : (lastPart "uG_10").mapM intChar = .ok [1, 0] := by decide +kernel
      unfold Arr.setInd
      rw [this, ok_bind]
      change (Except.ok [0, 2] >>= fun idx => Arr.setAt _ idx 1) = _
      rw [ok_bind]
      simp only [Arr.setAt]
      rw [if_neg (by decide)]
      congr 2
      funext i
      have : ∀ i : Ix2, (List.isPrefixOf [(0 : Fin 3), 2] [i.1, i.2] = true) = (i = (0, 2)) := by
        intro i; rw [eq_iff_iff]; revert i; decide
      simp only [this]
    have := step_array (A := []) (v := 1) (show headPart "uG_10" = "uG" by decide +kernel)
      (show Dict.get shapeTable "uG" = .ok .two by decide +kernel) (by decide) (by rfl) hs
    unfold wcxf2arrays
    rw [List.foldlM_cons, this]
    rfl
  obtain ⟨k, op, i, ho, hi, e⟩ := h _ _ h1 "uG_10" (by simp [Dict.keys]) (by decide +kernel)
  have hk : headPart "uG_10" = k := by rw [e]; exact headPart_label (isOp_plain ho) i
  have : headPart "uG_10" = "uG" := by decide +kernel
  obtain rfl : "uG" = k := this.symm.trans hk
  cases i with
  | nil => revert e; simp only [label]; decide +kernel
  | cons j js =>
    have h2 := congrArg lastPart e
    rw [lastPart_label] at h2
    have h3 : '0' ∈ (j :: js).map flavourDigit := by rw [← h2]; decide +kernel
    obtain ⟨x, -, hx⟩ := List.mem_map.1 h3
    revert hx; revert x; decide

/-- Arrays under the name of an operator with indices have its shape. -/
def ShapeInv (A : Dict String Arr) : Prop := ∀ k a, Dict.find A k = some a →
  (Dict.find shapeTable k = some .two → ∃ m, a = .mat m) ∧ (Dict.find shapeTable k = some .four → ∃ t, a = .ten t)

theorem mapM_ok {α β : Type} (f : α → Except PyErr β) (l : List α) (l' : List β) (h : l.mapM f = .ok l') :
    l.length = l'.length ∧ ∀ x ∈ l, ∃ y ∈ l', f x = .ok y := by
  induction l generalizing l' with
  | nil => cases h; simp
  | cons x l ih =>
    rw [List.mapM_cons] at h
    cases h1 : f x with
    | error e => rw [h1] at h; cases h
    | ok y =>
      rw [h1, ok_bind] at h
      cases h2 : l.mapM f with
      | error e => rw [h2] at h; cases h
      | ok l'' =>
        rw [h2] at h
        cases h
        obtain ⟨h3, h4⟩ := ih l'' h2
        refine ⟨by simp [h3], fun z hz => ?_⟩
        rcases List.mem_cons.1 hz with rfl | hz
        · exact ⟨y, by simp, h1⟩
        · obtain ⟨w, hw, e⟩ := h4 z hz
          exact ⟨w, by simp [hw], e⟩

theorem intChar_axis {c : Char} {m : ℕ} {i : Fin 3} (h1 : intChar c = .ok m) (h2 : axisIndex m = .ok i) :
    c ∈ ['0', '1', '2', '3'] := by
  unfold intChar at h1
  split at h1
  · next hd =>
    have hm : c.toNat - '0'.toNat = m := by simpa using h1
    have h48 : 48 ≤ c.toNat := by
      simp only [Char.isDigit, Bool.and_eq_true, decide_eq_true_eq] at hd
      exact hd.1
    have h0 : '0'.toNat = 48 := rfl
    have hle : m ≤ 3 := by
      by_contra hgt
      match m, hgt with
      | m + 4, _ => cases h2
    have hc : c = Char.ofNat c.toNat := (Char.ofNat_toNat c).symm
    have : c.toNat = 48 ∨ c.toNat = 49 ∨ c.toNat = 50 ∨ c.toNat = 51 := by omega
    rcases this with e | e | e | e <;> rw [hc, e] <;> decide
  · cases h1

theorem setInd_ok {a a' : Arr} {ind : List Char} {v : ℂ} (h : a.setInd ind v = .ok a') :
    (∀ c ∈ ind, c ∈ ['0', '1', '2', '3']) ∧
    (∀ m, a = .mat m → ind.length ≤ 2 ∧ ∃ m', a' = .mat m') ∧ (∀ t, a = .ten t → ind.length ≤ 4 ∧ ∃ t', a' = .ten t') := by
  unfold Arr.setInd at h
  cases h1 : ind.mapM intChar with
  | error e => rw [h1] at h; cases h
  | ok ns =>
    rw [h1, ok_bind] at h
    cases h2 : ns.mapM axisIndex with
    | error e => rw [h2] at h; cases h
    | ok idx =>
      rw [h2, ok_bind] at h
      obtain ⟨l1, p1⟩ := mapM_ok _ _ _ h1
      obtain ⟨l2, p2⟩ := mapM_ok _ _ _ h2
      refine ⟨fun c hc => ?_, fun m hm => ?_, fun t ht => ?_⟩
      · obtain ⟨k, hk, e1⟩ := p1 c hc
        obtain ⟨i, -, e2⟩ := p2 k hk
        exact intChar_axis e1 e2
      · subst hm
        simp only [Arr.setAt] at h
        split at h
        · cases h
        · refine ⟨by omega, ?_⟩
          cases h; exact ⟨_, rfl⟩
      · subst ht
        simp only [Arr.setAt] at h
        split at h
        · cases h
        · refine ⟨by omega, ?_⟩
          cases h; exact ⟨_, rfl⟩

theorem table_plain : ∀ k ∈ Dict.keys shapeTable, headPart k = k := by decide +kernel

/-- A successful step: the new invariant, and what it says about the name. -/
theorem step_ok {A A' : Dict String Arr} {key : String} {v : ℂ} (hA : ShapeInv A)
    (h : wcxf2arraysStep A (key, v) = .ok A') : ShapeInv A' ∧ ∀ s, Dict.find shapeTable (headPart key) = some s →
      (s = .two → (∀ c ∈ lastPart key, c ∈ ['0', '1', '2', '3']) ∧ (lastPart key).length ≤ 2) ∧
      (s = .four → (∀ c ∈ lastPart key, c ∈ ['0', '1', '2', '3']) ∧ (lastPart key).length ≤ 4) := by
  unfold wcxf2arraysStep at h
  dsimp only at h
  cases h1 : Dict.get shapeTable (headPart key) with
  | error e => rw [h1] at h; cases h
  | ok s =>
    rw [h1, ok_bind] at h
    rw [Dict.get_ok_iff] at h1
    by_cases hs : s = .one
    · rw [if_pos hs] at h
      have h : Dict.put A key (.num v) = A' := Except.ok.inj h
      subst h
      subst hs
      refine ⟨?_, fun s' hs' => ?_⟩
      · intro k a ha
        rw [Dict.find_put] at ha
        split at ha
        · next e =>
          subst e
          constructor <;> intro h2
          all_goals
            have := table_plain key (Dict.find_isSome_iff.1 (by rw [h2]; rfl))
            rw [this, h2] at h1
            cases h1
        · exact hA k a ha
      · obtain rfl : Shape.one = s' := by rw [h1] at hs'; exact Option.some.inj hs'
        simp
    · rw [if_neg hs] at h
      set A0 := if Dict.has A (headPart key) then A else Dict.put A (headPart key) s.zeros with hA0
      have hinv : ShapeInv A0 := by
        rw [hA0]
        split
        · exact hA
        · intro k a ha
          rw [Dict.find_put] at ha
          split at ha
          · next e =>
            subst e
            obtain rfl := Option.some.inj ha
            constructor <;> intro h2
            all_goals
              rw [h1] at h2
              obtain rfl := Option.some.inj h2
              exact ⟨_, rfl⟩
          · exact hA k a ha
      cases h2 : Dict.get A0 (headPart key) with
      | error e => rw [h2] at h; cases h
      | ok a =>
        rw [h2, ok_bind] at h
        rw [Dict.get_ok_iff] at h2
        cases h3 : a.setInd (lastPart key) v with
        | error e => rw [h3] at h; cases h
        | ok a' =>
          rw [h3, ok_bind] at h
          have h : Dict.put A0 (headPart key) a' = A' := Except.ok.inj h
          subst h
          obtain ⟨q1, q2, q3⟩ := setInd_ok h3
          obtain ⟨i1, i2⟩ := hinv _ a h2
          refine ⟨?_, fun s' hs' => ?_⟩
          · intro k b hb
            rw [Dict.find_put] at hb
            split at hb
            · next e =>
              subst e
              obtain rfl := Option.some.inj hb
              constructor <;> intro h4
              · obtain ⟨m, hm⟩ := i1 h4
                exact (q2 m hm).2
              · obtain ⟨m, hm⟩ := i2 h4
                exact (q3 m hm).2
            · exact hinv k b hb
          · constructor
            · rintro rfl
              obtain ⟨m, hm⟩ := i1 hs'
              exact ⟨q1, (q2 m hm).1⟩
            · rintro rfl
              obtain ⟨m, hm⟩ := i2 hs'
              exact ⟨q1, (q3 m hm).1⟩

theorem fold_inv (d : Dict String ℂ) (A A' : Dict String Arr) (hA : ShapeInv A) (h : d.foldlM wcxf2arraysStep A = .ok A') :
    ShapeInv A' := by
  induction d generalizing A with
  | nil => cases h; exact hA
  | cons p d ih =>
    rw [List.foldlM_cons] at h
    cases h1 : wcxf2arraysStep A p with
    | error e => rw [h1] at h; cases h
    | ok A1 => rw [h1, ok_bind] at h; exact ih A1 (step_ok (key := p.1) (v := p.2) hA h1).1 h

/-- **C61**, what holds: a suffix with a character that is no digit, with a digit above 3 or with too many digits is
rejected. -/
theorem C61_partial (d : Dict String ℂ) (A : Dict String Arr) (h : wcxf2arrays d = .ok A) (key : String)
    (hk : key ∈ Dict.keys d) (hh : headPart key ∈ wcKeys2f ++ wcKeys4f) :
    (∀ c ∈ lastPart key, c ∈ ['0', '1', '2', '3']) ∧
      (lastPart key).length ≤ if headPart key ∈ wcKeys4f then 4 else 2 := by
  obtain ⟨⟨key', v⟩, hp, rfl⟩ := List.mem_map.1 hk
  obtain ⟨d1, d2, rfl⟩ := List.append_of_mem hp
  obtain ⟨A1, h1, h2⟩ := foldlM_append_ok h
  have hinv := fold_inv d1 [] A1 (by intro k a ha; cases ha) h1
  rw [List.foldlM_cons] at h2
  dsimp only at hh ⊢
  cases h3 : wcxf2arraysStep A1 (key', v) with
  | error e => rw [h3] at h2; cases h2
  | ok A2 =>
    have h4 := (step_ok hinv h3).2
    have t2 : ∀ k ∈ wcKeys2f, Dict.find shapeTable k = some .two ∧ k ∉ wcKeys4f := by decide +kernel
    have t4 : ∀ k ∈ wcKeys4f, Dict.find shapeTable k = some .four := by decide +kernel
    by_cases h5 : headPart key' ∈ wcKeys4f
    · rw [if_pos h5]
      exact (h4 _ (t4 _ h5)).2 rfl
    · rw [if_neg h5]
      have h6 : headPart key' ∈ wcKeys2f := by simpa [h5] using hh
      exact (h4 _ (t2 _ h6).1).1 rfl

/-- Non-trivial instance: a digit above 3, a letter, and a suffix that is too long are refused, whatever else is given. -/
example (d : Dict String ℂ) (key : String) (hk : key ∈ ["uG_14", "ll_112x", "uphi_123"]) (hd : key ∈ Dict.keys d) :
    ∀ A, wcxf2arrays d ≠ .ok A := by
  intro A h
  have t : ∀ key ∈ ["uG_14", "ll_112x", "uphi_123"], headPart key ∈ wcKeys2f ++ wcKeys4f ∧
      ¬ ((∀ c ∈ lastPart key, c ∈ ['0', '1', '2', '3']) ∧ (lastPart key).length ≤ if headPart key ∈ wcKeys4f then 4 else 2) := by
    decide +kernel
  exact (t key hk).2 (C61_partial d A h key hd (t key hk).1)

end Verif
