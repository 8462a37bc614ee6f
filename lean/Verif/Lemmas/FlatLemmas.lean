import Mathlib.Data.List.Induction
import Mathlib.Data.List.Nodup
import Verif.Spec.Flat
import Verif.Model.SmeftTrans
import Verif.Props.Rot

/-! Flat names, and the two conversions between arrays and flat names. -/

set_option autoImplicit false

namespace Verif

open Spec

/-! ### Names -/

theorem digit_eq (i : Fin 3) : digit i = flavourDigit i := by
  revert i; decide

theorem flatName_eq (k : String) (i : Fin 3) (is : List (Fin 3)) : flatName k (i :: is) = label k (i :: is) := by
  simp only [flatName, label]
  rw [funext digit_eq]

/-- No underscore. -/
def Plain (k : String) : Prop := '_' ∉ k.toList

instance (k : String) : Decidable (Plain k) := by unfold Plain; infer_instance

theorem isOp_plain {k : String} {op : Op} (h : IsOp k op) : Plain k := by
  obtain ⟨ks, h1, h2⟩ := h
  have : ∀ p ∈ opTable, ∀ k ∈ p.2, Plain k := by decide +kernel
  exact this _ h1 k h2

theorem takeWhile_plain {l m : List Char} (h : '_' ∉ l) : (l ++ '_' :: m).takeWhile (· ≠ '_') = l := by
  induction l with
  | nil => simp
  | cons c l ih =>
    simp only [List.mem_cons, not_or] at h
    rw [List.cons_append, List.takeWhile_cons, if_pos (by simpa using Ne.symm h.1), ih h.2]

theorem takeWhile_plain' {l : List Char} (h : '_' ∉ l) : l.takeWhile (· ≠ '_') = l := by
  induction l with
  | nil => rfl
  | cons c l ih =>
    simp only [List.mem_cons, not_or] at h
    rw [List.takeWhile_cons, if_pos (by simpa using Ne.symm h.1), ih h.2]

theorem digits_plain (i : List (Fin 3)) : '_' ∉ i.map flavourDigit := by
  intro h
  obtain ⟨j, -, hj⟩ := List.mem_map.1 h
  revert j; decide

theorem headPart_label {k : String} (h : Plain k) (i : List (Fin 3)) : headPart (label k i) = k := by
  cases i with
  | nil => simp only [label, headPart]; rw [takeWhile_plain' h]; exact String.ofList_toList
  | cons i is => simp only [label, headPart, String.toList_ofList]; rw [takeWhile_plain h]; exact String.ofList_toList

theorem lastPart_label {k : String} (i : Fin 3) (is : List (Fin 3)) :
    lastPart (label k (i :: is)) = (i :: is).map flavourDigit := by
  simp only [label, lastPart, String.toList_ofList]
  rw [List.reverse_append, List.reverse_cons, List.append_assoc]
  have : '_' ∉ ((i :: is).map flavourDigit).reverse := by
    rw [List.mem_reverse]; exact digits_plain _
  rw [List.singleton_append, takeWhile_plain this, List.reverse_reverse]

theorem flavourDigit_inj : Function.Injective flavourDigit := by
  intro i j; revert i j; decide

theorem label_inj {k k' : String} (h : Plain k) (h' : Plain k') {i i' : List (Fin 3)} (e : label k i = label k' i') :
    k = k' ∧ i = i' := by
  have hk : k = k' := by rw [← headPart_label h i, e, headPart_label h']
  subst hk
  refine ⟨rfl, ?_⟩
  cases i with
  | nil => cases i' with
    | nil => rfl
    | cons j js =>
      exfalso
      apply h
      simp only [label] at e
      rw [e]; simp
  | cons i is => cases i' with
    | nil =>
      exfalso
      apply h
      simp only [label] at e
      rw [← e]; simp
    | cons j js =>
      have := congrArg lastPart e
      rw [lastPart_label, lastPart_label] at this
      exact flavourDigit_inj.list_map this

theorem parse_digits (i : List (Fin 3)) :
    ∃ ns, (i.map flavourDigit).mapM intChar = .ok ns ∧ ns.mapM axisIndex = .ok i := by
  have key : ∀ j : Fin 3, ∃ n, intChar (flavourDigit j) = .ok n ∧ axisIndex n = .ok j := by
    intro j
    match j with
    | 0 => exact ⟨1, rfl, rfl⟩
    | 1 => exact ⟨2, rfl, rfl⟩
    | 2 => exact ⟨3, rfl, rfl⟩
  induction i with
  | nil => exact ⟨[], rfl, rfl⟩
  | cons j is ih =>
    obtain ⟨ns, h1, h2⟩ := ih
    obtain ⟨n, h3, h4⟩ := key j
    refine ⟨n :: ns, ?_, ?_⟩
    · rw [List.map_cons, List.mapM_cons, h3, h1]; rfl
    · rw [List.mapM_cons, h4, h2]; rfl

/-! ### Arrays as functions of index lists -/

/-- The array of an operator with given entries. -/
def arrOf (op : Op) (f : List (Fin 3) → ℂ) : Arr :=
  match op with
  | .boson => .num (f [])
  | .two _ _ => .mat fun i => f [i.1, i.2]
  | .four _ _ _ _ => .ten fun i => f [i.1, i.2.1, i.2.2.1, i.2.2.2]

theorem arrOf_congr {op : Op} {f g : List (Fin 3) → ℂ} (h : ∀ i, i.length = op.rank → f i = g i) : arrOf op f = arrOf op g := by
  cases op with
  | boson => simp only [arrOf]; rw [h [] rfl]
  | two x y => simp only [arrOf]; congr 1; funext i; exact h _ rfl
  | four x y z w => simp only [arrOf]; congr 1; funext i; exact h _ rfl

/-- Values of a flat dictionary for one operator; absent names count as zero. -/
def entries (d : Dict String ℂ) (k : String) (i : List (Fin 3)) : ℂ := Dict.getD d (label k i) 0

/-- The shape of an operator. -/
def opShape : Op → Shape
  | .boson => .one
  | .two _ _ => .two
  | .four _ _ _ _ => .four

theorem shape_of_op {k : String} {op : Op} (h : IsOp k op) : Dict.get shapeTable k = .ok (opShape op) := by
  obtain ⟨ks, h1, h2⟩ := h
  have : ∀ p ∈ opTable, ∀ k ∈ p.2, Dict.find shapeTable k = some (opShape p.1) := by decide +kernel
  exact Dict.get_of_find (this _ h1 k h2)

theorem zeros_eq {op : Op} (h : op ≠ .boson) : (opShape op).zeros = arrOf op fun _ => 0 := by
  cases op with
  | boson => exact absurd rfl h
  | two x y => rfl
  | four x y z w => rfl

theorem setInd_arrOf {op : Op} (h : op ≠ .boson) (f : List (Fin 3) → ℂ) (i : List (Fin 3)) (hi : i.length = op.rank) (v : ℂ) :
    (arrOf op f).setInd (i.map flavourDigit) v = .ok (arrOf op fun j => if j = i then v else f j) := by
  obtain ⟨ns, h1, h2⟩ := parse_digits i
  have : (arrOf op f).setInd (i.map flavourDigit) v = (arrOf op f).setAt i v := by
    unfold Arr.setInd
    rw [h1]
    change (ns.mapM axisIndex >>= fun idx => (arrOf op f).setAt idx v) = _
    rw [h2]; rfl
  rw [this]
  have pre : ∀ j : List (Fin 3), j.length = i.length → (i.isPrefixOf j = true ↔ j = i) := by
    intro j hj
    rw [List.isPrefixOf_iff_prefix]
    constructor
    · intro hp; exact (hp.eq_of_length hj.symm).symm
    · rintro rfl; exact List.prefix_refl _
  cases op with
  | boson => exact absurd rfl h
  | two x y =>
    have hl : ¬ 2 < i.length := by rw [hi]; simp [Op.rank]
    simp only [arrOf, Arr.setAt, if_neg hl]
    congr 2
    funext j
    simp only [pre _ (show [j.1, j.2].length = i.length by rw [hi]; rfl)]
  | four x y z w =>
    have hl : ¬ 4 < i.length := by rw [hi]; simp [Op.rank]
    simp only [arrOf, Arr.setAt, if_neg hl]
    congr 2
    funext j
    simp only [pre _ (show [j.1, j.2.1, j.2.2.1, j.2.2.2].length = i.length by rw [hi]; rfl)]

/-! ### From flat names to arrays -/

/-- `A` holds the arrays of the flat dictionary `d`. -/
structure Holds (d : Dict String ℂ) (A : Dict String Arr) : Prop where
  wf : Dict.WF A
  ops : ∀ k ∈ Dict.keys A, ∃ op, IsOp k op
  some : ∀ k op, IsOp k op → (∃ i, i.length = op.rank ∧ label k i ∈ Dict.keys d) →
    Dict.find A k = some (arrOf op (entries d k))
  none : ∀ k op, IsOp k op → (¬ ∃ i, i.length = op.rank ∧ label k i ∈ Dict.keys d) → Dict.find A k = none

theorem entries_append {d : Dict String ℂ} {k : String} (hk : Plain k) {i : List (Fin 3)} {v : ℂ}
    (hn : label k i ∉ Dict.keys d) (k' : String) (hk' : Plain k') :
    entries (d ++ [(label k i, v)]) k' = if k' = k then fun j => if j = i then v else entries d k j else entries d k' := by
  funext j
  simp only [entries, Dict.getD, Dict.find_append, Dict.find]
  by_cases e : label k i = label k' j
  · obtain ⟨rfl, rfl⟩ := label_inj hk hk' e
    rw [Dict.find_eq_none_iff.2 hn]
    simp
  · simp only [if_neg e, Option.or_none]
    by_cases h1 : k' = k
    · subst h1
      have : j ≠ i := by rintro rfl; exact e rfl
      simp [this]
    · simp [h1, entries, Dict.getD]

theorem ok_bind {α β : Type} (a : α) (f : α → Except PyErr β) : (Except.ok a >>= f) = f a := rfl

theorem step_array {A : Dict String Arr} {key name : String} {s : Shape} {a a' : Arr} {v : ℂ} (h1 : headPart key = name)
    (h2 : Dict.get shapeTable name = .ok s) (hs : s ≠ .one)
    (h3 : Dict.get (if Dict.has A name then A else Dict.put A name s.zeros) name = .ok a)
    (h4 : a.setInd (lastPart key) v = .ok a') :
    wcxf2arraysStep A (key, v) = .ok (Dict.put (if Dict.has A name then A else Dict.put A name s.zeros) name a') := by
  unfold wcxf2arraysStep
  dsimp only
  rw [h1, h2, ok_bind, if_neg hs, h3, ok_bind, h4, ok_bind]
  rfl

theorem step_number {A : Dict String Arr} {key name : String} {v : ℂ} (h1 : headPart key = name)
    (h2 : Dict.get shapeTable name = .ok .one) : wcxf2arraysStep A (key, v) = .ok (Dict.put A key (.num v)) := by
  unfold wcxf2arraysStep
  dsimp only
  rw [h1, h2, ok_bind, if_pos rfl]
  rfl

theorem holds_step {d : Dict String ℂ} {A : Dict String Arr} (hA : Holds d A) {k : String} {op : Op} {i : List (Fin 3)}
    (ho : IsOp k op) (hi : i.length = op.rank) (v : ℂ) (hn : label k i ∉ Dict.keys d) :
    ∃ A', wcxf2arraysStep A (label k i, v) = .ok A' ∧ Holds (d ++ [(label k i, v)]) A' := by
  have hp := isOp_plain ho
  have hkeys : Dict.keys (d ++ [(label k i, v)]) = Dict.keys d ++ [label k i] := by simp [Dict.keys]
  -- the result of the step in both branches
  have hput : ∀ A0 : Dict String Arr, Dict.WF A0 → (∀ k' ∈ Dict.keys A0, ∃ op, IsOp k' op) →
      (∀ k', k' ≠ k → Dict.find A0 k' = Dict.find A k') →
      Holds (d ++ [(label k i, v)]) (Dict.put A0 k (arrOf op fun j => if j = i then v else entries d k j)) := by
    intro A0 w1 w2 w3
    constructor
    · exact Dict.WF_put w1 _ _
    · intro k' hk'
      rcases Dict.mem_keys_put.1 hk' with rfl | h
      · exact ⟨op, ho⟩
      · exact w2 k' h
    · intro k' op' ho' ⟨j, hj, hm⟩
      rw [Dict.find_put, entries_append hp hn k' (isOp_plain ho')]
      by_cases e : k = k'
      · subst e
        obtain rfl := isOp_unique ho ho'
        simp
      · rw [if_neg e, if_neg (Ne.symm e), w3 k' (Ne.symm e)]
        refine hA.some k' op' ho' ⟨j, hj, ?_⟩
        rw [hkeys, List.mem_append, List.mem_singleton] at hm
        rcases hm with hm | hm
        · exact hm
        · exact absurd (label_inj (isOp_plain ho') hp hm).1.symm e
    · intro k' op' ho' hne
      rw [Dict.find_put]
      by_cases e : k = k'
      · subst e
        obtain rfl := isOp_unique ho ho'
        exact absurd ⟨i, hi, by rw [hkeys]; simp⟩ hne
      · rw [if_neg e, w3 k' (Ne.symm e)]
        refine hA.none k' op' ho' ?_
        rintro ⟨j, hj, hm⟩
        exact hne ⟨j, hj, by rw [hkeys]; simp [hm]⟩
  by_cases hb : op = .boson
  · subst hb
    obtain rfl : i = [] := by simpa [Op.rank] using hi
    refine ⟨Dict.put A k (.num v), step_number (headPart_label hp []) (shape_of_op ho), ?_⟩
    have := hput A hA.wf hA.ops (fun _ _ => rfl)
    simpa [arrOf] using this
  · have hs : opShape op ≠ .one := by cases op <;> simp_all [opShape]
    cases i with
    | nil => cases op <;> simp_all [Op.rank]
    | cons i is =>
    have hset := setInd_arrOf hb (entries d k) (i :: is) hi v
    have hzero : (¬ ∃ j, j.length = op.rank ∧ label k j ∈ Dict.keys d) → (opShape op).zeros = arrOf op (entries d k) := by
      intro hne
      rw [zeros_eq hb]
      refine arrOf_congr fun j hj => ?_
      have : Dict.find d (label k j) = none := Dict.find_eq_none_iff.2 fun hm => hne ⟨j, hj, hm⟩
      simp [entries, Dict.getD, this]
    by_cases hex : ∃ j, j.length = op.rank ∧ label k j ∈ Dict.keys d
    · have hf := hA.some k op ho hex
      refine ⟨Dict.put A k (arrOf op fun j => if j = i :: is then v else entries d k j), ?_, hput A hA.wf hA.ops fun _ _ => rfl⟩
      have hh : Dict.has A k = true := by simp [Dict.has, hf]
      have := step_array (A := A) (v := v) (headPart_label hp (i :: is)) (shape_of_op ho) hs
        (by rw [if_pos hh]; exact Dict.get_of_find hf) (by rw [lastPart_label]; exact hset)
      rwa [if_pos hh] at this
    · have hf := hA.none k op ho hex
      have hh : Dict.has A k = false := by simp [Dict.has, hf]
      refine ⟨Dict.put (Dict.put A k (opShape op).zeros) k (arrOf op fun j => if j = i :: is then v else entries d k j), ?_,
        hput _ (Dict.WF_put hA.wf _ _) ?_ ?_⟩
      · have hf0 : ¬ Dict.has A k = true := by simp [hh]
        have := step_array (A := A) (v := v) (headPart_label hp (i :: is)) (shape_of_op ho) hs
          (by rw [if_neg hf0]; exact Dict.get_of_find (by rw [Dict.find_put, if_pos rfl]))
          (by rw [lastPart_label, hzero hex]; exact hset)
        rwa [if_neg hf0] at this
      · intro k' hk'
        rcases Dict.mem_keys_put.1 hk' with rfl | h
        · exact ⟨op, ho⟩
        · exact hA.ops k' h
      · intro k' hk'
        rw [Dict.find_put, if_neg (Ne.symm hk')]

/-- `wcxf2arrays` on flat names of operators. -/
theorem wcxf2arrays_spec (d : Dict String ℂ) (hw : Dict.WF d) (hd : ∀ key ∈ Dict.keys d, IsFlat key) :
    ∃ A, wcxf2arrays d = .ok A ∧ Holds d A := by
  induction d using List.reverseRecOn with
  | nil => exact ⟨[], rfl, ⟨Dict.WF_nil, by simp, by simp, fun _ _ _ _ => rfl⟩⟩
  | append_singleton d p ih =>
    obtain ⟨key, v⟩ := p
    have hk : Dict.keys (d ++ [(key, v)]) = Dict.keys d ++ [key] := by simp [Dict.keys]
    rw [Dict.WF, hk, List.nodup_append] at hw
    obtain ⟨A, h1, h2⟩ := ih hw.1 fun key' hm => hd key' (by rw [hk]; simp [hm])
    obtain ⟨k, op, i, ho, hi, rfl⟩ := hd key (by rw [hk]; simp)
    obtain ⟨A', h3, h4⟩ := holds_step h2 ho hi v (fun hm => hw.2.2 _ hm _ (by simp) rfl)
    refine ⟨A', ?_, h4⟩
    unfold wcxf2arrays at h1 ⊢
    rw [List.foldlM_append, h1]
    change wcxf2arraysStep A (label k i, v) >>= _ = _
    rw [h3]; rfl

/-! ### From arrays to flat names -/

/-- Index lists of an operator. -/
def idxs : Op → List (List (Fin 3))
  | .boson => [[]]
  | .two _ _ => ix2s.map fun i => [i.1, i.2]
  | .four _ _ _ _ => ix4s.map fun i => [i.1, i.2.1, i.2.2.1, i.2.2.2]

theorem mem_idxs {op : Op} {i : List (Fin 3)} : i ∈ idxs op ↔ i.length = op.rank := by
  cases op with
  | boson => simp [idxs, Op.rank]
  | two x y =>
    constructor
    · intro h
      obtain ⟨j, -, rfl⟩ := List.mem_map.1 h
      rfl
    · intro h
      match i, h with
      | [p, r], _ =>
        have : ∀ p r : Fin 3, [p, r] ∈ ix2s.map fun i => [i.1, i.2] := by decide +kernel
        exact this p r
  | four x y z w =>
    constructor
    · intro h
      obtain ⟨j, -, rfl⟩ := List.mem_map.1 h
      rfl
    · intro h
      match i, h with
      | [p, r, s, t], _ =>
        have : ∀ p r s t : Fin 3, [p, r, s, t] ∈ ix4s.map fun i => [i.1, i.2.1, i.2.2.1, i.2.2.2] := by decide +kernel
        exact this p r s t

theorem idxs_nodup (op : Op) : (idxs op).Nodup := by
  cases op with
  | boson => simp [idxs]
  | two x y =>
    have : (ix2s.map fun i => [i.1, i.2]).Nodup := by decide +kernel
    exact this
  | four x y z w =>
    have : (ix4s.map fun i => [i.1, i.2.1, i.2.2.1, i.2.2.2]).Nodup := by decide +kernel
    exact this

theorem flatEntries_arrOf (k : String) (op : Op) (f : List (Fin 3) → ℂ) :
    flatEntries k (arrOf op f) = (idxs op).map fun i => (label k i, f i) := by
  cases op with
  | boson => rfl
  | two x y => simp only [arrOf, flatEntries, idxs, List.map_map, Function.comp_def, flatName_eq]
  | four x y z w => simp only [arrOf, flatEntries, idxs, List.map_map, Function.comp_def, flatName_eq]

/-- All arrays are arrays of operators. -/
structure Proper (A : Dict String Arr) : Prop where
  wf : Dict.WF A
  ops : ∀ k ∈ Dict.keys A, ∃ op, IsOp k op
  arr : ∀ k op a, IsOp k op → Dict.find A k = some a → ∃ f, a = arrOf op f

theorem Holds.proper {d : Dict String ℂ} {A : Dict String Arr} (h : Holds d A) : Proper A := by
  refine ⟨h.wf, h.ops, fun k op a ho hf => ?_⟩
  by_cases hex : ∃ i, i.length = op.rank ∧ label k i ∈ Dict.keys d
  · rw [h.some k op ho hex] at hf
    exact ⟨_, (Option.some.inj hf).symm⟩
  · rw [h.none k op ho hex] at hf; simp at hf

theorem flat_wf {A : Dict String Arr} (h : Proper A) : Dict.WF (A.flatMap fun p => flatEntries p.1 p.2) := by
  have hent : ∀ p ∈ A, ∃ op f, IsOp p.1 op ∧ p.2 = arrOf op f := by
    intro p hp
    obtain ⟨op, ho⟩ := h.ops p.1 (List.mem_map.2 ⟨p, hp, rfl⟩)
    obtain ⟨f, hf⟩ := h.arr p.1 op p.2 ho (Dict.find_of_mem h.wf hp)
    exact ⟨op, f, ho, hf⟩
  unfold Dict.WF Dict.keys
  rw [List.map_flatMap, List.nodup_flatMap]
  constructor
  · intro p hp
    obtain ⟨op, f, ho, hf⟩ := hent p hp
    rw [hf, flatEntries_arrOf, List.map_map]
    refine List.Nodup.map (fun i j e => ?_) (idxs_nodup op)
    exact (label_inj (isOp_plain ho) (isOp_plain ho) e).2
  · have hnd : A.Pairwise fun p q => p.1 ≠ q.1 := List.pairwise_map.1 h.wf
    refine hnd.imp_of_mem ?_
    intro p q hp hq hne
    obtain ⟨op, f, ho, hf⟩ := hent p hp
    obtain ⟨op', f', ho', hf'⟩ := hent q hq
    simp only [Function.onFun, hf, hf', flatEntries_arrOf, List.map_map, Function.comp_def]
    intro key h1 h2
    obtain ⟨i, -, rfl⟩ := List.mem_map.1 h1
    obtain ⟨j, -, e⟩ := List.mem_map.1 h2
    exact hne (label_inj (isOp_plain ho') (isOp_plain ho) e).1.symm

theorem arrays2wcxf_mem {A : Dict String Arr} (h : Proper A) {key : String} {v : ℂ} :
    Dict.find (arrays2wcxf A) key = some v ↔
      ∃ k op i f, IsEntry key k op i ∧ Dict.find A k = some (arrOf op f) ∧ v = f i := by
  unfold arrays2wcxf
  rw [Dict.find_ofPairs (flat_wf h), Dict.find_eq_some_iff (flat_wf h), List.mem_flatMap]
  constructor
  · rintro ⟨⟨k, a⟩, hp, hm⟩
    obtain ⟨op, ho⟩ := h.ops k (List.mem_map.2 ⟨_, hp, rfl⟩)
    have hfind := Dict.find_of_mem h.wf hp
    obtain ⟨f, rfl⟩ := h.arr k op a ho hfind
    rw [flatEntries_arrOf] at hm
    obtain ⟨i, hi, e⟩ := List.mem_map.1 hm
    simp only [Prod.mk.injEq] at e
    exact ⟨k, op, i, f, ⟨ho, mem_idxs.1 hi, e.1.symm⟩, hfind, e.2.symm⟩
  · rintro ⟨k, op, i, f, ⟨ho, hi, rfl⟩, hfind, rfl⟩
    refine ⟨(k, arrOf op f), Dict.mem_of_find hfind, ?_⟩
    rw [flatEntries_arrOf]
    exact List.mem_map.2 ⟨i, mem_idxs.2 hi, rfl⟩

theorem arrays2wcxf_wf (A : Dict String Arr) : Dict.WF (arrays2wcxf A) := Dict.WF_ofPairs _

theorem arrays2wcxf_keys {A : Dict String Arr} (h : Proper A) {key : String} :
    key ∈ Dict.keys (arrays2wcxf A) ↔ ∃ k op i, IsEntry key k op i ∧ k ∈ Dict.keys A := by
  rw [← Dict.find_isSome_iff, Option.isSome_iff_exists]
  constructor
  · rintro ⟨v, hv⟩
    obtain ⟨k, op, i, f, he, hf, -⟩ := (arrays2wcxf_mem h).1 hv
    exact ⟨k, op, i, he, Dict.find_isSome_iff.1 (by rw [hf]; rfl)⟩
  · rintro ⟨k, op, i, he, hk⟩
    rw [← Dict.find_isSome_iff, Option.isSome_iff_exists] at hk
    obtain ⟨a, ha⟩ := hk
    obtain ⟨f, rfl⟩ := h.arr k op a he.1 ha
    exact ⟨f i, (arrays2wcxf_mem h).2 ⟨k, op, i, f, he, ha, rfl⟩⟩

end Verif
