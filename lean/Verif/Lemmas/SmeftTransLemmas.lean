import Verif.Lemmas.FlatLemmas

/-! The chain arrays, completion, rotation, flat names of the Warsaw translators. -/

set_option autoImplicit false

namespace Verif

open Spec

/-- Entry of an array at an index list. -/
def Arr.fn (a : Arr) (i : List (Fin 3)) : ℂ :=
  match a, i with
  | .num v, [] => v
  | .mat m, [p, r] => m (p, r)
  | .ten t, [p, r, s, u] => t (p, r, s, u)
  | _, _ => 0

theorem fn_arrOf {op : Op} {f : List (Fin 3) → ℂ} {i : List (Fin 3)} (hi : i.length = op.rank) : (arrOf op f).fn i = f i := by
  cases op with
  | boson => match i, hi with | [], _ => rfl
  | two x y => match i, hi with | [p, r], _ => rfl
  | four x y z w => match i, hi with | [p, r, s, t], _ => rfl

/-- The array is one of operator `op`. -/
def IsArr (op : Op) (a : Arr) : Prop := ∃ f, a = arrOf op f

theorem IsArr.eq {op : Op} {a : Arr} (h : IsArr op a) : a = arrOf op a.fn := by
  obtain ⟨f, rfl⟩ := h
  exact arrOf_congr fun i hi => (fn_arrOf hi).symm

theorem IsArr.shape {op : Op} {a : Arr} (h : IsArr op a) : HasShape op a := by
  obtain ⟨f, rfl⟩ := h
  cases op with
  | boson => exact ⟨_, .inl rfl⟩
  | two x y => exact ⟨_, rfl⟩
  | four x y z w => exact ⟨_, rfl⟩

theorem isArr_mat {x y : Slot} (m : Ix2 → ℂ) : IsArr (.two x y) (.mat m) :=
  ⟨(Arr.mat m).fn, rfl⟩

theorem isArr_ten {x y z w : Slot} (t : Ix4 → ℂ) : IsArr (.four x y z w) (.ten t) :=
  ⟨(Arr.ten t).fn, rfl⟩

theorem IsArr.complete {op : Op} {a : Arr} (h : IsArr op a) : IsArr op (complete op a) := by
  obtain ⟨f, rfl⟩ := h
  cases op with
  | boson => exact ⟨fun _ => ((f []).re : ℂ), rfl⟩
  | two x y => exact isArr_mat _
  | four x y z w => exact isArr_ten _

theorem IsArr.rotated {op : Op} {a : Arr} (h : IsArr op a) (U : Fld → M3) : IsArr op (rotated op U a) := by
  obtain ⟨f, rfl⟩ := h
  cases op with
  | boson => exact ⟨f, rfl⟩
  | two x y => exact isArr_mat _
  | four x y z w => exact isArr_ten _

/-! ### Zero arrays -/

theorem complete_zero (op : Op) : complete op (arrOf op fun _ => 0) = arrOf op fun _ => 0 := by
  refine complete_fix ?_
  cases op with
  | boson => exact ⟨0, .inl (by simp [arrOf])⟩
  | two x y =>
    refine ⟨_, rfl, fun c _ => ?_⟩
    cases c <;> simp [Rel2]
  | four x y z w =>
    refine ⟨_, rfl, fun c _ => ?_⟩
    cases c <;> simp [Rel4]

theorem rotated_zero (op : Op) (U : Fld → M3) : rotated op U (arrOf op fun _ => 0) = arrOf op fun _ => 0 := by
  cases op with
  | boson => rfl
  | two x y => simp only [arrOf, rotated]; congr 1; funext i; simp [rot2]
  | four x y z w => simp only [arrOf, rotated]; congr 1; funext i; simp [rot4]

/-! ### Independent entries -/

theorem complete_indep {op : Op} {g : List (Fin 3) → ℂ} {R : Arr} (hR : Conforms op R) (hA : IsArr op R)
    (h : ∀ i, Indep op i → g i = R.fn i) : complete op (arrOf op g) = R := by
  cases op with
  | boson =>
    obtain ⟨f, rfl⟩ := hA
    obtain ⟨v, hv⟩ := hR
    have h0 := h [] trivial
    have hv : f [] = (v : ℂ) := by
      rcases hv with hv | hv
      · exact Arr.num.inj hv
      · cases hv
    simp only [complete, arrOf, Arr.real, Arr.fn] at h0 ⊢
    rw [h0, hv]; simp
  | two x y =>
    obtain ⟨m, rfl, hm⟩ := hR
    refine congrArg Arr.mat ?_
    cases hc : cls2 x y with
    | none => funext i; exact h [i.1, i.2] fun c hc' => by simp [hc] at hc'
    | some c =>
      rw [← sym2_fix (hm c hc)]
      refine C31_matrix c (cls2_cases hc) _ _ fun i hi => ?_
      have := h [i.1, i.2] fun _ _ => hi
      rw [this]; exact ⟨rfl, fun _ => rfl⟩
  | four x y z w =>
    obtain ⟨t, rfl, hm⟩ := hR
    refine congrArg Arr.ten ?_
    cases hc : cls4 x y z w with
    | none => funext i; exact h [i.1, i.2.1, i.2.2.1, i.2.2.2] fun c hc' => by simp [hc] at hc'
    | some c =>
      rw [← sym4_fix (hm c hc)]
      refine C31_tensor c _ _ fun i hi => ?_
      have := h [i.1, i.2.1, i.2.2.1, i.2.2.2] fun c' hc' => by
        obtain rfl : c = c' := by simpa [hc] using hc'
        exact hi
      rw [this]; exact ⟨rfl, fun _ => rfl⟩

theorem indep_length {op : Op} {i : List (Fin 3)} (h : Indep op i) : i.length = op.rank := by
  unfold Indep at h
  split at h <;> first | rfl | exact absurd h id

theorem complete_keep {op : Op} {f : List (Fin 3) → ℂ} {i : List (Fin 3)} (hi : Indep op i) (hr : IsReal op i → (f i).im = 0) :
    (complete op (arrOf op f)).fn i = f i := by
  have hre : (f i).im = 0 → ((f i).re : ℂ) = f i := fun h => Complex.ext (by simp) (by simp [h])
  have hl := indep_length hi
  cases op with
  | boson => match i, hl with | [], _ => exact hre (hr trivial)
  | two x y =>
    match i, hl with
    | [p, r], _ =>
    simp only [complete, arrOf, Arr.fn]
    cases hc : cls2 x y with
    | none => rfl
    | some c =>
      rw [Option.elim, C31_matrix_free c _ (p, r) (hi c hc)]
      split_ifs with h
      · exact hre (hr ⟨c, hc, h⟩)
      · rfl
  | four x y z w =>
    match i, hl with
    | [p, r, s, t], _ =>
    simp only [complete, arrOf, Arr.fn]
    cases hc : cls4 x y z w with
    | none => rfl
    | some c =>
      rw [Option.elim, C31_tensor_free c _ (p, r, s, t) (hi c hc)]
      split_ifs with h
      · exact hre (hr ⟨c, hc, h⟩)
      · rfl

/-! ### Dictionaries of arrays -/

theorem Proper.shaped {A : Dict String Arr} (h : Proper A) : Shaped A := fun k a op hm ho =>
  IsArr.shape (h.arr k op a ho (Dict.find_of_mem h.wf hm))

theorem proper_of_find {A A' : Dict String Arr} (h : Proper A) (hw : Dict.WF A') (g : Op → Arr → Arr)
    (hg : ∀ op a, IsArr op a → IsArr op (g op a))
    (hf : ∀ k, Dict.find A' k = (opOf k).bind fun op => (Dict.find A k).map (g op)) : Proper A' := by
  refine ⟨hw, fun k hk => ?_, fun k op a ho ha => ?_⟩
  · rw [← Dict.find_isSome_iff, hf] at hk
    cases ho : opOf k with
    | none => rw [ho] at hk; simp at hk
    | some op => exact ⟨op, opOf_isOp ho⟩
  · rw [hf, opOf_eq ho] at ha
    obtain ⟨b, hb, rfl⟩ := Option.map_eq_some_iff.1 ha
    exact hg op b (h.arr k op b ho hb)

theorem symmetrize_proper {A : Dict String Arr} (h : Proper A) : ∃ A', symmetrize A = .ok A' ∧ Proper A' ∧
    ∀ k op, IsOp k op → Dict.find A' k = (Dict.find A k).map (complete op) := by
  refine ⟨_, symmetrize_eq A h.shaped, proper_of_find h ?_ complete (fun _ _ => IsArr.complete) (find_sym A), fun k op ho => ?_⟩
  · unfold Dict.WF Dict.keys
    refine List.Nodup.sublist ?_ h.wf
    clear h
    induction A with
    | nil => simp
    | cons p A ih =>
      rw [List.filterMap_cons]
      cases opOf p.1 with
      | none => exact ih.trans (List.sublist_cons_self _ _)
      | some op => exact ih.cons_cons _
  · rw [find_sym, opOf_eq ho]; rfl

theorem rotation_proper {A : Dict String Arr} (h : Proper A) (U : Rot) : ∃ A', flavorRotation A U = .ok A' ∧ Proper A' ∧
    ∀ k op, IsOp k op → Dict.find A' k = (Dict.find A k).map (rotated op U.fld) := by
  refine ⟨_, flavorRotation_eq A U h.shaped, proper_of_find h ?_ (fun op => rotated op U.fld)
    (fun op a ha => ha.rotated _) (find_rot A U), fun k op ho => ?_⟩
  · unfold Dict.WF Dict.keys
    refine List.Nodup.sublist ?_ rotKeys_nodup
    generalize rotKeys = l
    induction l with
    | nil => simp
    | cons k l ih =>
      rw [List.filterMap_cons]
      cases Dict.find A k with
      | none => exact ih.trans (List.sublist_cons_self _ _)
      | some v => exact ih.cons_cons _
  · rw [find_rot, opOf_eq ho]; rfl

/-- What the two Warsaw translators compute: every listed entry of the rotated completion. -/
theorem rotateWarsaw_spec (Uq : M3 → M3) (ckm : ℝ → ℝ → ℝ → ℝ → M3) (allWcs : List String) (default : Par)
    (C : Dict String ℂ) (par : Option Par) (V : M3) (hV : ckmOf ckm (withPar default par) = .ok V)
    (hw : Dict.WF C) (hC : ∀ key ∈ Dict.keys C, IsFlat key) :
    ∃ D, rotateWarsaw Uq ckm allWcs default C par = .ok D ∧ Dict.WF D ∧
      (∀ key ∈ Dict.keys D, key ∈ allWcs ∧ IsFlat key) ∧
      ∀ key k op i, IsEntry key k op i → Dict.getD D key 0 =
        if key ∈ allWcs then
          (rotated op (Rot.mk (Uq V) 1 1 1 1).fld (complete op (arrOf op (entries C k)))).fn i else 0 := by
  obtain ⟨A, h1, hA⟩ := wcxf2arrays_spec C hw hC
  obtain ⟨A2, h2, hA2, f2⟩ := symmetrize_proper hA.proper
  obtain ⟨A3, h3, hA3, f3⟩ := rotation_proper hA2 ⟨Uq V, 1, 1, 1, 1⟩
  refine ⟨Dict.filt (fun k _ => decide (k ∈ allWcs)) (arrays2wcxf A3), ?_, Dict.WF_filt (arrays2wcxf_wf _), ?_, ?_⟩
  · unfold rotateWarsaw
    dsimp only
    rw [h1, ok_bind, h2, ok_bind, hV, ok_bind, h3, ok_bind]
    rfl
  · intro key hk
    obtain ⟨v, hv, hc⟩ := Dict.mem_keys_filt.1 hk
    refine ⟨of_decide_eq_true hc, ?_⟩
    obtain ⟨k, op, i, he, -⟩ := (arrays2wcxf_keys hA3).1 (List.mem_map.2 ⟨_, hv, rfl⟩)
    exact ⟨k, op, i, he⟩
  · intro key k op i he
    unfold Dict.getD
    rw [Dict.find_filt (arrays2wcxf_wf _)]
    by_cases hall : key ∈ allWcs
    · have hv : ((Dict.find (arrays2wcxf A3) key).filter fun _ => decide (key ∈ allWcs)) = Dict.find (arrays2wcxf A3) key := by
        cases Dict.find (arrays2wcxf A3) key <;> simp [hall]
      rw [hv, if_pos hall]
      obtain ⟨ho, hi, rfl⟩ := he
      have hfind := f3 k op ho
      rw [f2 k op ho] at hfind
      by_cases hex : ∃ i, i.length = op.rank ∧ label k i ∈ Dict.keys C
      · rw [hA.some k op ho hex] at hfind
        simp only [Option.map_some] at hfind
        have hr : IsArr op (rotated op (Rot.mk (Uq V) 1 1 1 1).fld (complete op (arrOf op (entries C k)))) :=
          (IsArr.complete ⟨_, rfl⟩).rotated _
        rw [(arrays2wcxf_mem hA3).2 ⟨k, op, i, _, ⟨ho, hi, rfl⟩, hfind.trans (congrArg _ hr.eq), rfl⟩]
        rfl
      · rw [hA.none k op ho hex] at hfind
        have : Dict.find (arrays2wcxf A3) (label k i) = none := by
          rw [Dict.find_eq_none_iff, arrays2wcxf_keys hA3]
          rintro ⟨k', op', i', ⟨ho', hi', e⟩, hk'⟩
          obtain ⟨rfl, rfl⟩ := label_inj (isOp_plain ho) (isOp_plain ho') e
          rw [← Dict.find_isSome_iff, hfind] at hk'
          simp at hk'
        rw [this]
        have hz : arrOf op (entries C k) = arrOf op fun _ => 0 := arrOf_congr fun j hj => by
          have : Dict.find C (label k j) = none := Dict.find_eq_none_iff.2 fun hm => hex ⟨j, hj, hm⟩
          simp [entries, Dict.getD, this]
        rw [hz, complete_zero, rotated_zero, fn_arrOf hi]
        rfl
    · have hv : ((Dict.find (arrays2wcxf A3) key).filter fun _ => decide (key ∈ allWcs)) = none := by
        cases Dict.find (arrays2wcxf A3) key <;> simp [hall]
      rw [hv, if_neg hall]; rfl

end Verif
