import Verif.Model.Match
import Verif.Lemmas.SmeftTransLemmas

/-! What `match_all` computes, in terms of the flat input. -/

set_option autoImplicit false

namespace Verif

open Spec

/-! ### Arrays read by the formulas -/

/-- The source of an all-zero dictionary with the scalars of `S`. -/
def Src.zero (S : Src) : Src := ⟨fun _ => 0, fun _ => 0, 0, S.G.zeroed, S.Gtilde.zeroed⟩

theorem srcOf_zeroed (C : Dict String Arr) : srcOf (Dict.mapVals Arr.zeroed C) =
    ⟨fun _ => 0, fun _ => 0, 0, ((Dict.find C "G").getD (.num 0)).zeroed, ((Dict.find C "Gtilde").getD (.num 0)).zeroed⟩ := by
  unfold srcOf
  simp only [Dict.find_mapVals, Src.mk.injEq]
  refine ⟨funext fun k => ?_, funext fun k => ?_, ?_, ?_, ?_⟩
  · cases Dict.find C k with
    | none => rfl
    | some a => cases a <;> rfl
  · cases Dict.find C k with
    | none => rfl
    | some a => cases a <;> rfl
  · cases Dict.find C "phiWB" with
    | none => rfl
    | some a => cases a <;> simp [Arr.zeroed]
  · cases Dict.find C "G" <;> rfl
  · cases Dict.find C "Gtilde" <;> rfl

/-- The completed array of an operator, from the flat dictionary. -/
noncomputable def fullArr (d : Dict String ℂ) (k : String) (op : Op) : Arr := complete op (arrOf op (entries d k))

/-- The array of operator `k` in the dictionary passed to the matching conditions. A missing scalar is an array of
length one. -/
noncomputable def preArr (d : Dict String ℂ) (k : String) (op : Op) : Arr :=
  if op = .boson ∧ k ∉ Dict.keys d then .one 0 else fullArr d k op

/-- The input of the formulas, from the flat dictionary. -/
noncomputable def flatSrc (d : Dict String ℂ) : Src where
  mt k := match opOf k with
    | some (.two x y) => fun i => (fullArr d k (.two x y)).fn [i.1, i.2]
    | _ => 0
  tn k := match opOf k with
    | some (.four x y z w) => fun i => (fullArr d k (.four x y z w)).fn [i.1, i.2.1, i.2.2.1, i.2.2.2]
    | _ => 0
  phiWB := (Dict.getD d "phiWB" 0).re
  G := preArr d "G" .boson
  Gtilde := preArr d "Gtilde" .boson

theorem mem_wcKeys {k : String} : k ∈ wcKeys → ∃ op, IsOp k op := by
  have : ∀ k ∈ wcKeys, codeOf k ≠ 10 := by decide +kernel
  intro h
  exact (isOp_iff k).2 (this k h)

theorem isOp_wcKeys {k : String} {op : Op} (h : IsOp k op) : k ∈ wcKeys := by
  have : ∀ p ∈ opTable, ∀ k ∈ p.2, k ∈ wcKeys := by decide +kernel
  obtain ⟨ks, h1, h2⟩ := h
  exact this _ h1 k h2

theorem vT_not_op (op : Op) : ¬ IsOp "vT" op := by
  have : ∀ p ∈ opTable, ∀ k ∈ p.2, k ≠ "vT" := by decide +kernel
  rintro ⟨ks, h1, h2⟩
  exact this _ h1 _ h2 rfl

theorem wcKeys_nodup : wcKeys.Nodup := by decide +kernel

theorem find_addMissing (C : Dict String Arr) {k : String} {op : Op} (ho : IsOp k op) :
    Dict.find (addMissing C) k = some ((Dict.find C k).getD (opShape op).zeros) := by
  unfold addMissing
  rw [Dict.find_append]
  cases h : Dict.find C k with
  | some a => simp
  | none =>
    simp only [Option.none_or, Option.getD_none]
    have hs : Dict.find shapeTable k = some (opShape op) := Dict.get_ok_iff.1 (shape_of_op ho)
    have hw : Dict.WF ((wcKeys.filter fun k => !Dict.has C k).map fun k => (k, ((Dict.find shapeTable k).getD .one).zeros)) := by
      unfold Dict.WF Dict.keys
      rw [List.map_map]
      simpa [Function.comp_def] using wcKeys_nodup.filter _
    refine Dict.find_of_mem hw (List.mem_map.2 ⟨k, List.mem_filter.2 ⟨isOp_wcKeys ho, ?_⟩, ?_⟩)
    · simp [Dict.has, h]
    · simp [hs]

/-- The dictionary of arrays built by `match_all` from flat names. -/
theorem prepared (d : Dict String ℂ) (hw : Dict.WF d) (hd : ∀ key ∈ Dict.keys d, IsFlat key) :
    ∃ A A2, wcxf2arrays d = .ok A ∧ symmetrize A = .ok A2 ∧
      (∀ k op, IsOp k op → Dict.find (Dict.put (addMissing A2) "vT" (.num 246.22)) k = some (preArr d k op)) ∧
      ∀ k, (¬ ∃ op, IsOp k op) → k ≠ "vT" → Dict.find (Dict.put (addMissing A2) "vT" (.num 246.22)) k = none := by
  obtain ⟨A, h1, hA⟩ := wcxf2arrays_spec d hw hd
  obtain ⟨A2, h2, hA2, f2⟩ := symmetrize_proper hA.proper
  refine ⟨A, A2, h1, h2, fun k op ho => ?_, fun k hk hne => ?_⟩
  swap
  · rw [Dict.find_put, if_neg (Ne.symm hne), Dict.find_eq_none_iff]
    unfold addMissing
    rw [Dict.keys_append, List.mem_append]
    rintro (h | h)
    · exact hk (hA2.ops k h)
    · simp only [Dict.keys, List.map_map, Function.comp_def, List.map_id', List.mem_filter] at h
      exact hk (mem_wcKeys h.1)
  have hne : "vT" ≠ k := by rintro rfl; exact vT_not_op op ho
  rw [Dict.find_put, if_neg hne, find_addMissing A2 ho, f2 k op ho]
  by_cases hex : ∃ i, i.length = op.rank ∧ label k i ∈ Dict.keys d
  · rw [hA.some k op ho hex]
    simp only [Option.map_some, Option.getD_some]
    unfold preArr
    rw [if_neg]
    · rfl
    · rintro ⟨rfl, hk⟩
      obtain ⟨i, hi, hm⟩ := hex
      obtain rfl : i = [] := by simpa [Op.rank] using hi
      exact hk hm
  · rw [hA.none k op ho hex]
    simp only [Option.map_none, Option.getD_none]
    unfold preArr
    by_cases hb : op = .boson
    · subst hb
      have hk : k ∉ Dict.keys d := fun hm => hex ⟨[], rfl, hm⟩
      rw [if_pos ⟨rfl, hk⟩]
      rfl
    · rw [if_neg fun h => hb h.1, zeros_eq hb]
      unfold fullArr
      have hz : arrOf op (entries d k) = arrOf op fun _ => 0 := arrOf_congr fun j hj => by
        have : Dict.find d (label k j) = none := Dict.find_eq_none_iff.2 fun hm => hex ⟨j, hj, hm⟩
        simp [entries, Dict.getD, this]
      rw [hz, complete_zero]

theorem preArr_shape (d : Dict String ℂ) (k : String) (op : Op) : (preArr d k op).hasShape (opShape op) = true := by
  unfold preArr
  split_ifs with h
  · rw [h.1]; rfl
  · cases op <;> rfl

theorem forM_ok {α : Type} (l : List α) (f : α → Except PyErr Unit) (h : ∀ a ∈ l, f a = .ok ()) : l.forM f = .ok () := by
  induction l with
  | nil => rfl
  | cons a l ih =>
    change f a >>= (fun _ => l.forM f) = _
    rw [h a (by simp)]
    exact ih fun b hb => h b (by simp [hb])

theorem check_ok {P : Dict String Arr} {d : Dict String ℂ} (h : ∀ k op, IsOp k op → Dict.find P k = some (preArr d k op)) :
    checkArrays P = .ok () := by
  refine forM_ok _ _ fun k hk => ?_
  obtain ⟨op, ho⟩ := mem_wcKeys hk
  rw [Dict.get_of_find (h k op ho), ok_bind, shape_of_op ho, ok_bind, if_pos (preArr_shape d k op)]
  rfl

theorem src_eq {P : Dict String Arr} {d : Dict String ℂ} (h : ∀ k op, IsOp k op → Dict.find P k = some (preArr d k op))
    (h' : ∀ k, (¬ ∃ op, IsOp k op) → k ≠ "vT" → Dict.find P k = none) (hv : Dict.find P "vT" = some (.num 246.22)) :
    srcOf P = flatSrc d := by
  have hcase : ∀ k, (∃ op, IsOp k op) ∨ opOf k = none ∧ (Dict.find P k = none ∨ Dict.find P k = some (.num 246.22)) := by
    intro k
    by_cases ho : ∃ op, IsOp k op
    · exact .inl ho
    · refine .inr ⟨?_, ?_⟩
      · cases hc : opOf k with
        | none => rfl
        | some op => exact absurd ⟨op, opOf_isOp hc⟩ ho
      · by_cases hk : k = "vT"
        · subst hk; exact .inr hv
        · exact .inl (h' k ho hk)
  unfold srcOf flatSrc
  rw [Src.mk.injEq]
  refine ⟨funext fun k => ?_, funext fun k => ?_, ?_, ?_, ?_⟩
  · rcases hcase k with ⟨op, ho⟩ | ⟨ho, hf | hf⟩
    · rw [h k op ho, opOf_eq ho]
      unfold preArr
      cases op with
      | boson => split_ifs <;> rfl
      | two x y => rfl
      | four x y z w => rfl
    · rw [ho, hf]
    · rw [ho, hf]
  · rcases hcase k with ⟨op, ho⟩ | ⟨ho, hf | hf⟩
    · rw [h k op ho, opOf_eq ho]
      unfold preArr
      cases op with
      | boson => split_ifs <;> rfl
      | two x y => rfl
      | four x y z w => rfl
    · rw [ho, hf]
    · rw [ho, hf]
  · rw [h "phiWB" .boson (by decide +kernel)]
    unfold preArr
    split_ifs with hc
    · simp [Dict.getD, Dict.find_eq_none_iff.2 hc.2]
    · rfl
  · rw [h "G" .boson (by decide +kernel)]; rfl
  · rw [h "Gtilde" .boson (by decide +kernel)]; rfl

/-! ### Result of the matching -/

/-- `rotate_down` on one entry. -/
noncomputable def rotEntry (V : M3) (k : String) : Arr → Arr
  | .ten T => .ten (rotateRule V k T)
  | a => a

/-- The WET arrays. -/
noncomputable def matched (V : M3) (S : Src) (w w0 : EW) : Dict String Arr :=
  matchRules.map fun r => (r.1, rotEntry V r.1 ((r.2 S w).sub (r.2 S.zero w0)))

theorem except_bind_congr {α β : Type} (x : Except PyErr α) (f g : α → Except PyErr β) (h : ∀ a, f a = g a) :
    (x >>= f) = (x >>= g) := by
  cases x with
  | error e => rfl
  | ok a => exact h a

/-- `match_all` on flat names of operators. -/
theorem matchAll_eq (ckm : ℝ → ℝ → ℝ → ℝ → M3) (allWcs : List String) (default : Par) (d : Dict String ℂ)
    (par : Option Par) (hw : Dict.WF d) (hd : ∀ key ∈ Dict.keys d, IsFlat key) :
    matchAll ckm allWcs default d par = (do
      let w ← ewOf (flatSrc d) (withPar default par)
      let w0 ← ewOf (flatSrc d).zero (withPar default par)
      let V ← ckmOf ckm (withPar default par)
      .ok (Dict.filt (fun k _ => decide (k ∈ allWcs)) (arrays2wcxf (matched V (flatSrc d) w w0)))) := by
  obtain ⟨A, A2, h1, h2, h3, h4⟩ := prepared d hw hd
  have hsrc := src_eq h3 h4 (by rw [Dict.find_put, if_pos rfl])
  unfold matchAll
  dsimp only
  rw [h1, ok_bind, h2, ok_bind]
  generalize Dict.put (addMissing A2) "vT" (.num 246.22) = P at *
  have hz : srcOf (Dict.mapVals Arr.zeroed P) = (flatSrc d).zero := by
    rw [srcOf_zeroed, ← hsrc]; rfl
  unfold matchAllArray
  dsimp only
  rw [check_ok h3, ok_bind, hsrc, hz]
  simp only [bind_assoc]
  refine except_bind_congr _ _ _ fun w => except_bind_congr _ _ _ fun w0 => ?_
  simp only [pure_bind, rotateDown, bind_assoc]
  refine except_bind_congr _ _ _ fun V => ?_
  rw [List.map_map]
  unfold matched
  congr 3

/-! ### Flat names of the result -/

/-- Index lists of an array. -/
def Arr.idxs : Arr → List (List (Fin 3))
  | .num _ => [[]]
  | .one _ => [[0]]
  | .mat _ => ix2s.map fun i => [i.1, i.2]
  | .ten _ => ix4s.map fun i => [i.1, i.2.1, i.2.2.1, i.2.2.2]

/-- Entry of an array. -/
def Arr.ent : Arr → List (Fin 3) → ℂ
  | .num v, [] => v
  | .one v, [0] => v
  | .mat m, [p, r] => m (p, r)
  | .ten t, [p, r, s, u] => t (p, r, s, u)
  | _, _ => 0

theorem flatEntries_eq (k : String) (a : Arr) : flatEntries k a = a.idxs.map fun i => (label k i, a.ent i) := by
  cases a with
  | num v => rfl
  | one v => simp only [flatEntries, Arr.idxs, List.map_cons, List.map_nil, flatName_eq]; rfl
  | mat m => simp only [flatEntries, Arr.idxs, List.map_map, Function.comp_def, flatName_eq]; rfl
  | ten t => simp only [flatEntries, Arr.idxs, List.map_map, Function.comp_def, flatName_eq]; rfl

theorem arr_idxs_nodup (a : Arr) : a.idxs.Nodup := by
  cases a with
  | num v => simp [Arr.idxs]
  | one v => simp [Arr.idxs]
  | mat m => exact idxs_nodup (.two (b .q) (b .q))
  | ten t => exact idxs_nodup (.four (b .q) (b .q) (b .q) (b .q))

theorem flatPairs_wf {D : Dict String Arr} (hw : Dict.WF D) (hp : ∀ k ∈ Dict.keys D, Plain k) :
    Dict.WF (D.flatMap fun p => flatEntries p.1 p.2) := by
  unfold Dict.WF Dict.keys
  rw [List.map_flatMap, List.nodup_flatMap]
  constructor
  · intro p hm
    have := hp p.1 (List.mem_map.2 ⟨p, hm, rfl⟩)
    rw [flatEntries_eq, List.map_map]
    exact List.Nodup.map (fun i j e => (label_inj this this e).2) (arr_idxs_nodup _)
  · have hnd : D.Pairwise fun p q => p.1 ≠ q.1 := List.pairwise_map.1 hw
    refine hnd.imp_of_mem ?_
    intro p q h1 h2 hne
    simp only [Function.onFun, flatEntries_eq, List.map_map, Function.comp_def]
    intro key h3 h4
    obtain ⟨i, -, rfl⟩ := List.mem_map.1 h3
    obtain ⟨j, -, e⟩ := List.mem_map.1 h4
    exact hne (label_inj (hp q.1 (List.mem_map.2 ⟨q, h2, rfl⟩)) (hp p.1 (List.mem_map.2 ⟨p, h1, rfl⟩)) e).1.symm

theorem find_flat {D : Dict String Arr} (hw : Dict.WF D) (hp : ∀ k ∈ Dict.keys D, Plain k) {k : String} {a : Arr}
    (hk : Dict.find D k = some a) {i : List (Fin 3)} (hi : i ∈ a.idxs) :
    Dict.find (arrays2wcxf D) (label k i) = some (a.ent i) := by
  unfold arrays2wcxf
  rw [Dict.find_ofPairs (flatPairs_wf hw hp)]
  refine Dict.find_of_mem (flatPairs_wf hw hp) (List.mem_flatMap.2 ⟨(k, a), Dict.mem_of_find hk, ?_⟩)
  rw [flatEntries_eq]
  exact List.mem_map.2 ⟨i, hi, rfl⟩

theorem flat_some {D : Dict String Arr} (hw : Dict.WF D) (hp : ∀ k ∈ Dict.keys D, Plain k) {key : String} {v : ℂ}
    (h : Dict.find (arrays2wcxf D) key = some v) :
    ∃ k a i, Dict.find D k = some a ∧ i ∈ a.idxs ∧ key = label k i ∧ v = a.ent i := by
  unfold arrays2wcxf at h
  rw [Dict.find_ofPairs (flatPairs_wf hw hp)] at h
  obtain ⟨⟨k, a⟩, h1, h2⟩ := List.mem_flatMap.1 (Dict.mem_of_find h)
  rw [flatEntries_eq] at h2
  obtain ⟨i, hi, e⟩ := List.mem_map.1 h2
  simp only [Prod.mk.injEq] at e
  exact ⟨k, a, i, Dict.find_of_mem hw h1, hi, e.1.symm, e.2.symm⟩

/-- Entries of arrays of equal shape agree if the flat entries do. -/
theorem find_flat_head {D : Dict String Arr} (hw : Dict.WF D) (hp : ∀ k ∈ Dict.keys D, Plain k) {D' : Dict String Arr}
    (hw' : Dict.WF D') (hp' : ∀ k ∈ Dict.keys D', Plain k) {key : String}
    (h : Dict.find D (headPart key) = Dict.find D' (headPart key)) :
    Dict.find (arrays2wcxf D) key = Dict.find (arrays2wcxf D') key := by
  have one : ∀ {D D' : Dict String Arr} (hw : Dict.WF D) (hp : ∀ k ∈ Dict.keys D, Plain k)
      (hw' : Dict.WF D') (hp' : ∀ k ∈ Dict.keys D', Plain k)
      (h : Dict.find D (headPart key) = Dict.find D' (headPart key)) (v : ℂ),
      Dict.find (arrays2wcxf D) key = some v → Dict.find (arrays2wcxf D') key = some v := by
    intro D D' hw hp hw' hp' h v hv
    obtain ⟨k, a, i, hk, hi, rfl, rfl⟩ := flat_some hw hp hv
    have hpk := hp k (Dict.find_isSome_iff.1 (by rw [hk]; rfl))
    rw [headPart_label hpk, hk] at h
    exact find_flat hw' hp' h.symm hi
  cases hv : Dict.find (arrays2wcxf D) key with
  | some v => exact (one hw hp hw' hp' h v hv).symm
  | none =>
    cases hv' : Dict.find (arrays2wcxf D') key with
    | none => rfl
    | some v' => rw [one hw' hp' hw hp h.symm v' hv'] at hv; cases hv

/-- The names of the WET coefficients. -/
def wetNames : List String := [
  "nu", "nugamma", "egamma", "ugamma", "dgamma", "uG", "dG", "G", "Gtilde", "VnunuLL", "VeeLL", "VnueLL", "VnuuLL",
  "VnudLL", "VeuLL", "VedLL", "VnueduLL", "VuuLL", "VddLL", "V1udLL", "V8udLL", "VeeRR", "VeuRR", "VedRR", "VuuRR",
  "VddRR", "V1udRR", "V8udRR", "VnueLR", "VeeLR", "VnuuLR", "VnudLR", "VeuLR", "VedLR", "VueLR", "VdeLR", "VnueduLR",
  "V1uuLR", "V8uuLR", "V1udLR", "V8udLR", "V1duLR", "V8duLR", "V1ddLR", "V8ddLR", "V1udduLR", "V8udduLR", "SeuRL",
  "SedRL", "SnueduRL", "SeeRR", "SeuRR", "TeuRR", "SedRR", "TedRR", "SnueduRR", "TnueduRR", "S1uuRR", "S8uuRR",
  "S1udRR", "S8udRR", "S1ddRR", "S8ddRR", "S1udduRR", "S8udduRR", "SnunuLL", "SnueLL", "TnueLL", "SnueLR", "SnuuLL",
  "TnuuLL", "SnuuLR", "SnudLL", "TnudLL", "SnudLR", "SnueduLL", "TnueduLL", "SnueduLR", "VnueduRL", "VnueduRR",
  "SuddLL", "SduuLL", "SuudLR", "SduuLR", "SuudRL", "SduuRL", "SdudRL", "SdduRL", "SduuRR", "SdddLL", "SuddLR",
  "SdduLR", "SdddLR", "SdddRL", "SuddRR", "SdddRR"]

theorem rules_names : matchRules.map Prod.fst = wetNames := rfl

theorem wetNames_plain : ∀ k ∈ wetNames, Plain k := by decide +kernel

theorem wetNames_nodup : wetNames.Nodup := by decide +kernel

theorem matched_keys (V : M3) (S : Src) (w w0 : EW) : Dict.keys (matched V S w w0) = wetNames := by
  unfold Dict.keys matched
  rw [List.map_map, ← rules_names]
  rfl

theorem matched_wf (V : M3) (S : Src) (w w0 : EW) : Dict.WF (matched V S w w0) := by
  unfold Dict.WF
  rw [matched_keys]
  exact wetNames_nodup

theorem matched_plain (V : M3) (S : Src) (w w0 : EW) : ∀ k ∈ Dict.keys (matched V S w w0), Plain k := by
  rw [matched_keys]
  exact wetNames_plain

theorem find_matched (V : M3) (S : Src) (w w0 : EW) {k : String} {f : Src → EW → Arr} (h : (k, f) ∈ matchRules) :
    Dict.find (matched V S w w0) k = some (rotEntry V k ((f S w).sub (f S.zero w0))) := by
  refine Dict.find_of_mem (matched_wf V S w w0) ?_
  unfold matched
  exact List.mem_map.2 ⟨(k, f), h, rfl⟩

end Verif
