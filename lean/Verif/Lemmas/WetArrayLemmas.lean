import Verif.Lemmas.WetLemmas
import Verif.Lemmas.FlatLemmas
import Verif.Spec.Wet

/-! Expansion of flat JMS coefficients to tensors. -/

set_option autoImplicit false

namespace Verif

open Spec

/-- Values of the completed input. -/
theorem find_completed (L : List String) (C : Dict String ℂ) (k : String) :
    Dict.find (completed L C) k = if k ∈ L then some (Dict.getD C k 0) else none := by
  have : ∀ (L : List String) (d : Dict String ℂ), Dict.find (Dict.upd d (L.map fun k => (k, Dict.getD C k 0))) k =
      if k ∈ L then some (Dict.getD C k 0) else Dict.find d k := by
    intro L
    induction L with
    | nil => intro d; simp
    | cons a L ih =>
      intro d
      rw [List.map_cons, Dict.upd_cons, ih, Dict.find_put]
      by_cases h1 : k ∈ L
      · simp [h1]
      · by_cases h2 : a = k
        · subst h2; simp [h1]
        · simp [h1, h2, Ne.symm h2]
  exact (this L []).trans (by simp)

theorem WF_completed (L : List String) (C : Dict String ℂ) : Dict.WF (completed L C) := Dict.WF_ofPairs _

theorem mem_keys_completed {L : List String} {C : Dict String ℂ} {k : String} :
    k ∈ Dict.keys (completed L C) ↔ k ∈ L := by
  rw [← Dict.find_isSome_iff, find_completed]
  by_cases h : k ∈ L <;> simp [h]

/-- Reading the completed input. -/
theorem get_completed {L : List String} {C : Dict String ℂ} {k : String} (h : k ∈ L) :
    Dict.get (completed L C) k = .ok (Dict.getD C k 0) := by
  rw [Dict.get_ok_iff, find_completed, if_pos h]

theorem filter_plain {l : List Char} (h : '_' ∉ l) : l.filter (· ≠ '_') = l :=
  List.filter_eq_self.2 fun c hc => by
    simp only [decide_eq_true_eq]
    rintro rfl; exact h hc

theorem namePart_label {k : String} (h : Plain k) (i : Fin 3) (is : List (Fin 3)) : namePart (label k (i :: is)) = k := by
  have hd : '_' ∉ ((i :: is).map flavourDigit).reverse := by
    rw [List.mem_reverse]; exact digits_plain _
  have h1 : ∀ (l m : List Char), '_' ∉ l → (l ++ '_' :: m).dropWhile (· ≠ '_') = '_' :: m := by
    intro l m hl
    induction l with
    | nil => simp
    | cons c l ih =>
      simp only [List.mem_cons, not_or] at hl
      rw [List.cons_append, List.dropWhile_cons, if_pos (by simpa using Ne.symm hl.1), ih hl.2]
  simp only [label, namePart, String.toList_ofList]
  rw [List.reverse_append, List.reverse_cons, List.append_assoc, List.singleton_append, h1 _ _ hd]
  simp only [List.reverse_cons, List.reverse_reverse, List.dropLast_concat]
  have : k.toList.filter (fun c => decide (c ≠ '_')) = k.toList := filter_plain h
  rw [this]; exact String.ofList_toList

theorem isPrefixOf_iff {i j : List (Fin 3)} (h : i.length = j.length) : i.isPrefixOf j = true ↔ i = j := by
  rw [List.isPrefixOf_iff_prefix]
  exact ⟨fun hp => hp.eq_of_length h, fun e => e ▸ List.prefix_refl _⟩

/-- State of `_scalar2array` after the entries `d`. -/
structure ArrInv (rank : String → ℕ) (d : Dict String ℂ) (da : Dict String NArr) : Prop where
  shape : ∀ k x, Dict.find da k = some x → (∃ i, label k i ∈ Dict.keys d) ∧ Plain k ∧
    ((rank k = 0 ∧ ∃ v, x = .num v) ∨
     (rank k ≠ 0 ∧ ∃ a, x = .arr (rank k) a ∧ ∀ j, j.length = rank k → a j = Dict.find d (label k j)))
  has : ∀ k i, Plain k → label k i ∈ Dict.keys d → ∃ x, Dict.find da k = some x
  wf : Dict.WF da

theorem step_num {da : Dict String NArr} {k : String} (hk : Plain k) (v : ℂ) :
    scalar2arrayStep da (k, v) = .ok (Dict.put da k (.num v)) := by
  unfold scalar2arrayStep
  exact if_pos hk

theorem underscore_label {k : String} (i : Fin 3) (is : List (Fin 3)) : '_' ∈ (label k (i :: is)).toList := by
  simp [label]

theorem step_arr {da : Dict String NArr} {k : String} (hk : Plain k) (i : Fin 3) (is : List (Fin 3)) (v : ℂ)
    (dim : ℕ) (a : List (Fin 3) → Option ℂ) (hd : (i :: is).length = dim)
    (h : Dict.find da k = some (.arr dim a) ∨ (Dict.find da k = none ∧ a = fun _ => none)) :
    ∃ da', scalar2arrayStep da (label k (i :: is), v) = .ok da' ∧ (Dict.WF da → Dict.WF da') ∧
      ∀ k', Dict.find da' k' = if k = k' then some (.arr dim fun j => if (i :: is).isPrefixOf j then some v else a j)
        else Dict.find da k' := by
  obtain ⟨ns, h1, h2⟩ := parse_digits (i :: is)
  unfold scalar2arrayStep
  simp only
  rw [if_neg (by simpa using underscore_label i is), namePart_label hk, lastPart_label, h1]
  have hlen : ((i :: is).map flavourDigit).length = dim := by simpa using hd
  have hne : ((i :: is).map flavourDigit).length ≠ 0 := by simp
  have hnd : ¬ dim < (i :: is).length := by omega
  rcases h with h | ⟨h, ha⟩
  · have hh : Dict.has da k = true := by simp [Dict.has, h]
    rw [if_pos hh, except_ok_bind, except_ok_bind, h2, except_ok_bind, Dict.get_of_find h, except_ok_bind]
    simp only
    rw [if_neg hnd]
    refine ⟨_, rfl, fun hw => Dict.WF_put hw _ _, fun k' => ?_⟩
    rw [Dict.find_put]
  · have hh : ¬ Dict.has da k = true := by simp [Dict.has, h]
    rw [if_neg hh, if_neg hne, except_ok_bind, except_ok_bind, h2, except_ok_bind,
      Dict.get_of_find (by rw [Dict.find_put, if_pos rfl]), except_ok_bind]
    simp only
    rw [hlen, if_neg hnd]
    refine ⟨_, rfl, fun hw => Dict.WF_put (Dict.WF_put hw _ _) _ _, fun k' => ?_⟩
    rw [Dict.find_put, Dict.find_put, ha]
    by_cases hkk : k = k' <;> simp [hkk]

theorem ArrInv.step {rank : String → ℕ} {d : Dict String ℂ} {da : Dict String NArr} (inv : ArrInv rank d da)
    {k : String} (hk : Plain k) {i : List (Fin 3)} (hi : i.length = rank k) (v : ℂ) (hn : label k i ∉ Dict.keys d) :
    ∃ da', scalar2arrayStep da (label k i, v) = .ok da' ∧ ArrInv rank (d ++ [(label k i, v)]) da' := by
  have hkeys : Dict.keys (d ++ [(label k i, v)]) = Dict.keys d ++ [label k i] := by simp
  cases i with
  | nil =>
    refine ⟨_, step_num hk v, ?_, ?_, Dict.WF_put inv.wf _ _⟩
    · intro k' x hx
      rw [Dict.find_put] at hx
      by_cases e : k = k'
      · subst e
        rw [if_pos rfl] at hx
        injection hx with hx
        exact ⟨⟨[], by rw [hkeys]; simp⟩, hk, Or.inl ⟨hi.symm, v, hx.symm⟩⟩
      · rw [if_neg e] at hx
        obtain ⟨⟨j, hj⟩, hp, h⟩ := inv.shape k' x hx
        refine ⟨⟨j, by rw [hkeys]; exact List.mem_append_left _ hj⟩, hp, h.imp_right ?_⟩
        rintro ⟨h0, a, hxa, ha⟩
        refine ⟨h0, a, hxa, fun j hj => ?_⟩
        rw [ha j hj, Dict.find_append, Dict.find_cons, if_neg, Dict.find_nil, Option.or_none]
        exact fun e' => e (label_inj (i := []) (i' := j) hk hp e').1
    · intro k' i' hp hm
      rw [Dict.find_put]
      by_cases e : k = k'
      · rw [if_pos e]; exact ⟨_, rfl⟩
      · rw [if_neg e]
        rw [hkeys, List.mem_append, List.mem_singleton] at hm
        rcases hm with hm | hm
        · exact inv.has k' i' hp hm
        · exact absurd (label_inj hp hk hm).1.symm e
  | cons i is =>
    have h0 : rank k ≠ 0 := by rw [← hi]; simp
    have hex : ∃ a, (Dict.find da k = some (.arr (rank k) a) ∨ (Dict.find da k = none ∧ a = fun _ => none)) ∧
        ∀ j, j.length = rank k → a j = Dict.find d (label k j) := by
      cases hf : Dict.find da k with
      | none =>
        refine ⟨fun _ => none, Or.inr ⟨rfl, rfl⟩, fun j hj => ?_⟩
        symm
        rw [Dict.find_eq_none_iff]
        intro hm
        obtain ⟨x, hx⟩ := inv.has k j hk hm
        rw [hf] at hx; cases hx
      | some x =>
        obtain ⟨-, -, ⟨h, -⟩ | ⟨-, a, rfl, ha⟩⟩ := inv.shape k x hf
        · exact absurd h h0
        · exact ⟨a, Or.inl rfl, ha⟩
    obtain ⟨a, h, ha⟩ := hex
    obtain ⟨da', hs, hw, hf⟩ := step_arr hk i is v (rank k) a hi h
    refine ⟨da', hs, ?_, ?_, hw inv.wf⟩
    · intro k' x hx
      rw [hf] at hx
      by_cases e : k = k'
      · subst e
        rw [if_pos rfl] at hx
        injection hx with hx
        refine ⟨⟨i :: is, by rw [hkeys]; simp⟩, hk, Or.inr ⟨h0, _, hx.symm, fun j hj => ?_⟩⟩
        by_cases e : i :: is = j
        · rw [if_pos ((isPrefixOf_iff (hi.trans hj.symm)).2 e), ← e, Dict.find_append, Dict.find_eq_none_iff.2 hn,
            Dict.find_cons, if_pos rfl]; rfl
        · rw [if_neg (fun h => e ((isPrefixOf_iff (hi.trans hj.symm)).1 h)), ha j hj, Dict.find_append, Dict.find_cons,
            if_neg, Dict.find_nil, Option.or_none]
          exact fun e' => e (label_inj hk hk e').2
      · rw [if_neg e] at hx
        obtain ⟨⟨j, hj⟩, hp, h⟩ := inv.shape k' x hx
        refine ⟨⟨j, by rw [hkeys]; exact List.mem_append_left _ hj⟩, hp, h.imp_right ?_⟩
        rintro ⟨h0, a, hxa, ha⟩
        refine ⟨h0, a, hxa, fun j hj => ?_⟩
        rw [ha j hj, Dict.find_append, Dict.find_cons, if_neg, Dict.find_nil, Option.or_none]
        exact fun e' => e (label_inj (i := i :: is) (i' := j) hk hp e').1
    · intro k' i' hp hm
      rw [hf]
      by_cases e : k = k'
      · rw [if_pos e]; exact ⟨_, rfl⟩
      · rw [if_neg e]
        rw [hkeys, List.mem_append, List.mem_singleton] at hm
        rcases hm with hm | hm
        · exact inv.has k' i' hp hm
        · exact absurd (label_inj hp hk hm).1.symm e

theorem scalar2array_ok {rank : String → ℕ} {d : Dict String ℂ} (hd : Dict.WF d)
    (hn : ∀ n ∈ Dict.keys d, ∃ k i, Plain k ∧ i.length = rank k ∧ n = label k i) :
    ∃ da, scalar2array d = .ok da ∧ ArrInv rank d da := by
  have : ∀ (rest pre : Dict String ℂ) (da : Dict String NArr), Dict.WF (pre ++ rest) → ArrInv rank pre da →
      (∀ n ∈ Dict.keys rest, ∃ k i, Plain k ∧ i.length = rank k ∧ n = label k i) →
      ∃ da', rest.foldlM scalar2arrayStep da = .ok da' ∧ ArrInv rank (pre ++ rest) da' := by
    intro rest
    induction rest with
    | nil => intro pre da _ h _; exact ⟨da, rfl, by simpa using h⟩
    | cons p rest ih =>
      intro pre da hw h hr
      obtain ⟨n, v⟩ := p
      obtain ⟨k, i, hk, hi, rfl⟩ := hr n (by simp)
      have hnot : label k i ∉ Dict.keys pre := by
        intro hm
        unfold Dict.WF at hw
        rw [Dict.keys_append] at hw
        exact (List.nodup_append.1 hw).2.2 _ hm _ (by simp) rfl
      obtain ⟨da1, h1, inv1⟩ := h.step hk hi v hnot
      obtain ⟨da2, h2, inv2⟩ := ih (pre ++ [(label k i, v)]) da1 (by simpa using hw) inv1
        (fun n hn => hr n (by simp [hn]))
      refine ⟨da2, ?_, by simpa using inv2⟩
      rw [List.foldlM_cons, h1, except_ok_bind, h2]
  obtain ⟨da, h1, h2⟩ := this d [] [] (by simpa using hd) ⟨by simp, by simp, Dict.WF_nil⟩ hn
  exact ⟨da, h1, by simpa using h2⟩

/-! ### Symmetrisation -/

/-- Entries after filling in. -/
noncomputable def fillOpt (k : String) (f : List (Fin 3) → Option ℂ) (i : List (Fin 3)) : Option ℂ :=
  if k ∈ hermKeys then (f i).or ((f (permHerm i)).map (starRingEnd ℂ))
  else if k ∈ currentKeys then (f i).or (f (permCurrent i))
  else if k ∈ hermCurrentKeys then
    ((f i).or (f (permCurrent i))).or (((f (permHerm i)).or (f (permCurrent (permHerm i)))).map (starRingEnd ℂ))
  else f i

theorem length_permHerm (i : List (Fin 3)) : (permHerm i).length = i.length := by
  unfold permHerm; split <;> rfl

theorem length_permCurrent (i : List (Fin 3)) : (permCurrent i).length = i.length := by
  unfold permCurrent; split <;> rfl

theorem hermKeys_spec : ∀ k, (k ∈ hermKeys ∨ k ∈ hermCurrentKeys ↔ k ∈ jmsHermitian) ∧
    (k ∈ currentKeys ∨ k ∈ hermCurrentKeys ↔ k ∈ jmsExchange) := by
  intro k
  constructor
  · rw [← List.mem_append]
    constructor <;> intro h
    · have : ∀ k ∈ hermKeys ++ hermCurrentKeys, k ∈ jmsHermitian := by decide +kernel
      exact this k h
    · have : ∀ k ∈ jmsHermitian, k ∈ hermKeys ++ hermCurrentKeys := by decide +kernel
      exact this k h
  · rw [← List.mem_append]
    constructor <;> intro h
    · have : ∀ k ∈ currentKeys ++ hermCurrentKeys, k ∈ jmsExchange := by decide +kernel
      exact this k h
    · have : ∀ k ∈ jmsExchange, k ∈ currentKeys ++ hermCurrentKeys := by decide +kernel
      exact this k h

theorem symmEntry_arr {k : String} {dim : ℕ} (a : List (Fin 3) → Option ℂ)
    (h : k ∈ jmsHermitian ∨ k ∈ jmsExchange → dim = 4) :
    symmEntry k (.arr dim a) = .ok (.arr dim (fillOpt k a)) := by
  obtain ⟨hh, hc⟩ := hermKeys_spec k
  unfold symmEntry
  by_cases h1 : k ∈ hermKeys
  · have := h (Or.inl (hh.1 (Or.inl h1)))
    subst this
    rw [if_pos h1]
    have : (fillOpt k a) = fun i => (a i).or ((a (permHerm i)).map (starRingEnd ℂ)) := by
      funext i; simp [fillOpt, h1]
    rw [this]; rfl
  · rw [if_neg h1]
    by_cases h2 : k ∈ currentKeys
    · have := h (Or.inr (hc.1 (Or.inl h2)))
      subst this
      rw [if_pos h2]
      have : (fillOpt k a) = fun i => (a i).or (a (permCurrent i)) := by
        funext i; simp [fillOpt, h1, h2]
      rw [this]; rfl
    · rw [if_neg h2]
      by_cases h3 : k ∈ hermCurrentKeys
      · have := h (Or.inl (hh.1 (Or.inr h3)))
        subst this
        rw [if_pos h3]
        have : (fillOpt k a) = fun i =>
            ((a i).or (a (permCurrent i))).or (((a (permHerm i)).or (a (permCurrent (permHerm i)))).map (starRingEnd ℂ)) := by
          funext i; simp [fillOpt, h1, h2, h3]
        rw [this]; rfl
      · rw [if_neg h3]
        have : (fillOpt k a) = a := by
          funext i; simp [fillOpt, h1, h2, h3]
        rw [this]

theorem symmEntry_num {k : String} (v : ℂ) (h : ¬ (k ∈ jmsHermitian ∨ k ∈ jmsExchange)) :
    symmEntry k (.num v) = .ok (.num v) := by
  obtain ⟨hh, hc⟩ := hermKeys_spec k
  unfold symmEntry
  rw [if_neg fun h1 => h (Or.inl (hh.1 (Or.inl h1))), if_neg fun h1 => h (Or.inr (hc.1 (Or.inl h1))),
    if_neg fun h1 => h (Or.inl (hh.1 (Or.inr h1)))]

theorem mapM_entries {l : Dict String NArr} {g : String → NArr → NArr}
    (h : ∀ p ∈ l, symmEntry p.1 p.2 = .ok (g p.1 p.2)) :
    (l.mapM fun p => do let a ← symmEntry p.1 p.2; return (p.1, a)) = .ok (l.map fun p => (p.1, g p.1 p.2)) := by
  induction l with
  | nil => rfl
  | cons p l ih =>
    rw [List.mapM_cons, h p (by simp), ih fun q hq => h q (by simp [hq])]; rfl

theorem find_map_entries (l : Dict String NArr) (g : String → NArr → NArr) (k : String) :
    Dict.find (l.map fun p => (p.1, g p.1 p.2)) k = (Dict.find l k).map (g k) := by
  induction l with
  | nil => rfl
  | cons p l ih =>
    rw [List.map_cons, Dict.find_cons, Dict.find_cons, ih]
    by_cases e : p.1 = k
    · subst e; simp
    · simp [e]

/-- Value of a listed coefficient. -/
def listedOpt (L : List String) (C : Dict String ℂ) (k : String) (i : List (Fin 3)) : Option ℂ :=
  if label k i ∈ L then some (Dict.getD C (label k i) 0) else none

theorem fillOpt_congr {k : String} {f g : List (Fin 3) → Option ℂ} {i : List (Fin 3)}
    (h : ∀ j, j.length = i.length → f j = g j) : fillOpt k f i = fillOpt k g i := by
  have h1 := h i rfl
  have h2 := h (permHerm i) (length_permHerm i)
  have h3 := h (permCurrent i) (length_permCurrent i)
  have h4 := h (permCurrent (permHerm i)) ((length_permCurrent _).trans (length_permHerm i))
  unfold fillOpt
  rw [h1, h2, h3, h4]

theorem find_mem_keys {l : Dict String NArr} (hl : Dict.WF l) {p : String × NArr} (hp : p ∈ l) : Dict.find l p.1 = some p.2 :=
  Dict.find_of_mem hl hp

/-- Expansion to tensors, with the value of every entry. -/
theorem jmsToArray_ok {rank : String → ℕ} {L : List String} (hL : IsListing rank L) (C : Dict String ℂ) :
    ∃ Ca, jmsToArray L C = .ok Ca ∧ ∀ k i, Plain k → i ≠ [] → i.length = rank k → (∃ j, label k j ∈ L) →
      readArr Ca (k, i) = match fillOpt k (listedOpt L C k) i with
        | some v => .ok v
        | none => .error .nan := by
  obtain ⟨da, hda, inv⟩ := scalar2array_ok (rank := rank) (WF_completed L C)
    (fun n hn => hL.name n (mem_keys_completed.1 hn))
  have hwf := inv.wf
  let g : String → NArr → NArr := fun k x => match x with
    | .num v => .num v
    | .arr dim a => .arr dim (fillOpt k a)
  have hg : ∀ p ∈ da, symmEntry p.1 p.2 = .ok (g p.1 p.2) := by
    intro p hp
    obtain ⟨⟨i, hi⟩, hk, h⟩ := inv.shape p.1 p.2 (find_mem_keys hwf hp)
    have h4 := hL.four p.1 i hk (mem_keys_completed.1 hi)
    rcases h with ⟨h0, v, hv⟩ | ⟨h0, a, ha, -⟩
    · rw [hv]
      exact symmEntry_num v fun h => by have := h4 h; omega
    · rw [ha]
      exact symmEntry_arr a h4
  refine ⟨da.map fun p => (p.1, g p.1 p.2), ?_, ?_⟩
  · unfold jmsToArray
    rw [hda, except_ok_bind]
    exact mapM_entries hg
  · intro k i hk hi hlen ⟨j, hj⟩
    obtain ⟨x, hx⟩ := inv.has k j hk (mem_keys_completed.2 hj)
    have h0 : rank k ≠ 0 := by
      rw [← hlen]; simpa using hi
    obtain ⟨-, -, ⟨h, -⟩ | ⟨-, a, rfl, ha⟩⟩ := inv.shape k x hx
    · exact absurd h h0
    · unfold readArr
      simp only
      rw [Dict.get_of_find (v := .arr (rank k) (fillOpt k a)) (by rw [find_map_entries, hx]; rfl), except_ok_bind]
      simp only
      rw [if_neg (by omega), if_neg (by omega)]
      have : fillOpt k a i = fillOpt k (listedOpt L C k) i := fillOpt_congr fun j hj => by
        rw [ha j (hj.trans hlen), find_completed]; rfl
      rw [this]
      generalize fillOpt k (listedOpt L C k) i = o
      cases o <;> rfl

/-! ### Orbits -/

theorem permHerm_invol (i : List (Fin 3)) : permHerm (permHerm i) = i := by
  match i with
  | [] | [_] | [_, _] | [_, _, _] | [_, _, _, _] | _ :: _ :: _ :: _ :: _ :: _ => rfl

theorem permCurrent_invol (i : List (Fin 3)) : permCurrent (permCurrent i) = i := by
  match i with
  | [] | [_] | [_, _] | [_, _, _] | [_, _, _, _] | _ :: _ :: _ :: _ :: _ :: _ => rfl

/-- Conjugation if `c`. -/
noncomputable def conjIf (c : Bool) (z : ℂ) : ℂ := if c then starRingEnd ℂ z else z

theorem conjIf_xor (c c' : Bool) (z : ℂ) : conjIf c (conjIf c' z) = conjIf (c ^^ c') z := by
  cases c <;> cases c' <;> simp [conjIf]

theorem Spec.Tied.trans {k : String} {c c' : Bool} {i j l : List (Fin 3)} (h : Tied k c i j) (h' : Tied k c' j l) :
    Tied k (c ^^ c') i l := by
  induction h' with
  | refl j => simpa using h
  | herm c' j p r s t hk _ ih =>
    have := Tied.herm _ _ p r s t hk (ih h)
    have e : (!(c ^^ c')) = (c ^^ !c') := by cases c <;> cases c' <;> rfl
    rwa [e] at this
  | exch c' j p r s t hk _ ih => exact Tied.exch _ _ p r s t hk (ih h)

theorem Spec.Tied.symm {k : String} {c : Bool} {i j : List (Fin 3)} (h : Tied k c i j) : Tied k c j i := by
  induction h with
  | refl i => exact Tied.refl i
  | herm c i p r s t hk _ ih =>
    have := Tied.trans (Tied.herm false _ r p t s hk (Tied.refl _)) ih
    simpa using this
  | exch c i p r s t hk _ ih =>
    have := Tied.trans (Tied.exch false _ s t p r hk (Tied.refl _)) ih
    simpa using this

theorem Spec.Tied.length {k : String} {c : Bool} {i j : List (Fin 3)} (h : Tied k c i j) : i.length = j.length := by
  induction h with
  | refl i => rfl
  | herm c i p r s t hk _ ih => simpa using ih
  | exch c i p r s t hk _ ih => simpa using ih

/-- All entries tied to a given one. -/
theorem Spec.Tied.elim4 {k : String} {c : Bool} {i j : List (Fin 3)} (h : Tied k c i j) :
    (j = i ∧ c = false) ∨ (k ∈ jmsHermitian ∧ j = permHerm i ∧ c = true) ∨ (k ∈ jmsExchange ∧ j = permCurrent i ∧ c = false) ∨
    (k ∈ jmsHermitian ∧ k ∈ jmsExchange ∧ j = permCurrent (permHerm i) ∧ c = true) := by
  induction h with
  | refl i => exact Or.inl ⟨rfl, rfl⟩
  | herm c i p r s t hk h ih =>
    rcases ih with ⟨h1, rfl⟩ | ⟨-, h1, rfl⟩ | ⟨hx, h1, rfl⟩ | ⟨-, hx, h1, rfl⟩
    · subst h1; exact Or.inr (Or.inl ⟨hk, rfl, rfl⟩)
    · have := congrArg permHerm h1
      rw [permHerm_invol] at this
      subst this; exact Or.inl ⟨rfl, rfl⟩
    · have := congrArg permCurrent h1
      rw [permCurrent_invol] at this
      subst this; exact Or.inr (Or.inr (Or.inr ⟨hk, hx, rfl, rfl⟩))
    · have := congrArg permHerm (congrArg permCurrent h1)
      rw [permCurrent_invol, permHerm_invol] at this
      subst this; exact Or.inr (Or.inr (Or.inl ⟨hx, rfl, rfl⟩))
  | exch c i p r s t hk h ih =>
    rcases ih with ⟨h1, rfl⟩ | ⟨hh, h1, rfl⟩ | ⟨-, h1, rfl⟩ | ⟨hh, -, h1, rfl⟩
    · subst h1; exact Or.inr (Or.inr (Or.inl ⟨hk, rfl, rfl⟩))
    · have := congrArg permHerm h1
      rw [permHerm_invol] at this
      subst this; exact Or.inr (Or.inr (Or.inr ⟨hh, hk, rfl, rfl⟩))
    · have := congrArg permCurrent h1
      rw [permCurrent_invol] at this
      subst this; exact Or.inl ⟨rfl, rfl⟩
    · have := congrArg permHerm (congrArg permCurrent h1)
      rw [permCurrent_invol, permHerm_invol] at this
      subst this; exact Or.inr (Or.inl ⟨hh, rfl, rfl⟩)

theorem Spec.Tied.permHerm {k : String} (hk : k ∈ jmsHermitian) {i : List (Fin 3)} (hi : i.length = 4) : Tied k true i (permHerm i) := by
  match i, hi with
  | [p, r, s, t], _ => exact Tied.herm false _ p r s t hk (Tied.refl _)

theorem Spec.Tied.permCurrent {k : String} (hk : k ∈ jmsExchange) {i : List (Fin 3)} (hi : i.length = 4) :
    Tied k false i (permCurrent i) := by
  match i, hi with
  | [p, r, s, t], _ => exact Tied.exch false _ p r s t hk (Tied.refl _)

theorem fillOpt_here {k : String} {f : List (Fin 3) → Option ℂ} {i : List (Fin 3)} {x : ℂ} (h : f i = some x) :
    fillOpt k f i = some x := by
  unfold fillOpt
  split_ifs <;> simp [h]

/-- The filled entry comes from an entry tied to it. -/
theorem fillOpt_some {k : String} {f : List (Fin 3) → Option ℂ} {i : List (Fin 3)} {w : ℂ}
    (hi : k ∈ jmsHermitian ∨ k ∈ jmsExchange → i.length = 4) (h : fillOpt k f i = some w) :
    ∃ c j x, Tied k c i j ∧ f j = some x ∧ w = conjIf c x := by
  obtain ⟨hh, hc⟩ := hermKeys_spec k
  have here : ∀ x, f i = some x → w = x → ∃ c j x, Tied k c i j ∧ f j = some x ∧ w = conjIf c x :=
    fun x hx hw => ⟨false, i, x, Tied.refl i, hx, hw⟩
  unfold fillOpt at h
  split at h
  · next h1 =>
    have hk := hh.1 (Or.inl h1)
    cases hf : f i with
    | some x => rw [hf] at h; injection h with h; exact here x hf h.symm
    | none =>
      rw [hf, Option.none_or, Option.map_eq_some_iff] at h
      obtain ⟨x, hx, h⟩ := h
      exact ⟨true, _, x, Tied.permHerm hk (hi (Or.inl hk)), hx, h.symm⟩
  · split at h
    · next h1 =>
      have hk := hc.1 (Or.inl h1)
      cases hf : f i with
      | some x => rw [hf] at h; injection h with h; exact here x hf h.symm
      | none =>
        rw [hf, Option.none_or] at h
        exact ⟨false, _, w, Tied.permCurrent hk (hi (Or.inr hk)), h, rfl⟩
    · split at h
      · next h1 =>
        have hk := hc.1 (Or.inr h1)
        have hk' := hh.1 (Or.inr h1)
        have h4 := hi (Or.inr hk)
        cases hf : f i with
        | some x => rw [hf] at h; injection h with h; exact here x hf h.symm
        | none =>
          cases hf2 : f (permCurrent i) with
          | some x =>
            rw [hf, hf2] at h; injection h with h
            exact ⟨false, _, x, Tied.permCurrent hk h4, hf2, h.symm⟩
          | none =>
            rw [hf, hf2, Option.none_or, Option.none_or, Option.map_eq_some_iff] at h
            obtain ⟨x, hx, h⟩ := h
            cases hf3 : f (Verif.permHerm i) with
            | some y =>
              rw [hf3] at hx; injection hx with hx
              exact ⟨true, _, y, Tied.permHerm hk' h4, hf3, by rw [hx]; exact h.symm⟩
            | none =>
              rw [hf3, Option.none_or] at hx
              refine ⟨true, _, x, Tied.trans (Tied.permHerm hk' h4) (Tied.permCurrent hk ?_), hx, h.symm⟩
              rw [length_permHerm]; exact h4
      · exact here w h rfl

/-- An entry is filled if a tied one is given. -/
theorem fillOpt_isSome {k : String} {f : List (Fin 3) → Option ℂ} {c : Bool} {i j : List (Fin 3)} {x : ℂ}
    (h : Tied k c i j) (hx : f j = some x) : ∃ w, fillOpt k f i = some w := by
  obtain ⟨hh, hc⟩ := hermKeys_spec k
  rw [← Option.isSome_iff_exists]
  unfold fillOpt
  have dis : ∀ k ∈ hermKeys, k ∉ jmsExchange := by decide +kernel
  have dis' : ∀ k ∈ currentKeys, k ∉ jmsHermitian := by decide +kernel
  rcases Tied.elim4 h with ⟨rfl, -⟩ | ⟨hk, rfl, -⟩ | ⟨hk, rfl, -⟩ | ⟨hk, hk', rfl, -⟩
  · split_ifs <;> simp [hx]
  · split_ifs with h1 h2 h3
    · simp [hx]
    · exact absurd hk (dis' k h2)
    · simp [hx]
    · rcases hh.2 hk with h | h <;> contradiction
  · split_ifs with h1 h2 h3
    · exact absurd hk (dis k h1)
    · simp [hx]
    · simp [hx]
    · rcases hc.2 hk with h | h <;> contradiction
  · split_ifs with h1 h2 h3
    · exact absurd hk' (dis k h1)
    · exact absurd hk (dis' k h2)
    · simp [hx]
    · rcases hc.2 hk' with h | h <;> contradiction

/-- Values of the tensors of a listing. -/
noncomputable def jval (L : List String) (C : Dict String ℂ) (s : JSrc) : ℂ := (fillOpt s.1 (listedOpt L C s.1) s.2).getD 0

theorem jmsRanges_plain : ∀ p ∈ jmsRanges, Plain p.1 ∧ p.2 ≠ [] := by decide +kernel

theorem isListing_length {rank : String → ℕ} {L : List String} (hL : IsListing rank L) {k : String} (hk : Plain k)
    {i : List (Fin 3)} (h : label k i ∈ L) : i.length = rank k := by
  obtain ⟨k', i', hk', hi', e⟩ := hL.name _ h
  obtain ⟨rfl, rfl⟩ := label_inj hk hk' e
  exact hi'

/-- With a listing of the JMS basis every entry can be read. -/
theorem jms_readable {L : List String} (hL : JmsListing L) (C : Dict String ℂ) :
    ∃ Ca, jmsToArray L C = .ok Ca ∧ ∀ s, IsJms s → readArr Ca s = .ok (jval L C s) := by
  obtain ⟨rank, hr⟩ := hL.listing
  obtain ⟨Ca, h1, h2⟩ := jmsToArray_ok hr C
  refine ⟨Ca, h1, fun s hs => ?_⟩
  obtain ⟨c, j, ht, hj⟩ := hL.full s hs
  obtain ⟨r, hm, hf⟩ := hs
  obtain ⟨hp, hne⟩ := jmsRanges_plain _ hm
  have hlen := isListing_length hr hp hj
  have hi : s.2 ≠ [] := by
    intro e
    rw [e] at hf
    cases hf; exact hne rfl
  obtain ⟨w, hw⟩ := fillOpt_isSome (f := listedOpt L C s.1) ht (by unfold listedOpt; rw [if_pos hj])
  rw [show s = (s.1, s.2) from rfl, h2 s.1 s.2 hp hi ((Tied.length ht).trans hlen) ⟨j, hj⟩, hw]
  unfold jval
  rw [hw]; rfl

theorem fillOpt_map {k : String} {f g h : List (Fin 3) → Option ℂ} (hfg : ∀ j, (f j).isSome = (g j).isSome)
    (hfh : ∀ j, (f j).isSome = (h j).isSome) {r s : ℝ}
    (hv : ∀ j, (f j).getD 0 = (r : ℂ) * (g j).getD 0 + (s : ℂ) * (h j).getD 0) (i : List (Fin 3)) :
    (fillOpt k f i).getD 0 = (r : ℂ) * (fillOpt k g i).getD 0 + (s : ℂ) * (fillOpt k h i).getD 0 := by
  have one : ∀ {a b c : Option ℂ}, a.isSome = b.isSome → a.isSome = c.isSome → a.getD 0 = (r : ℂ) * b.getD 0 + (s : ℂ) * c.getD 0 →
      (a = none ∧ b = none ∧ c = none) ∨ ∃ x y z, a = some x ∧ b = some y ∧ c = some z ∧ x = (r : ℂ) * y + (s : ℂ) * z := by
    intro a b c h1 h2 h3
    cases a <;> cases b <;> cases c <;> simp_all
  have k1 := one (hfg i) (hfh i) (hv i)
  have k2 := one (hfg (permHerm i)) (hfh (permHerm i)) (hv (permHerm i))
  have k3 := one (hfg (permCurrent i)) (hfh (permCurrent i)) (hv (permCurrent i))
  have k4 := one (hfg (permCurrent (permHerm i))) (hfh (permCurrent (permHerm i))) (hv (permCurrent (permHerm i)))
  unfold fillOpt
  split_ifs
  · rcases k1 with ⟨h1, h2, h3⟩ | ⟨x, y, z, h1, h2, h3, h4⟩
    · rcases k2 with ⟨g1, g2, g3⟩ | ⟨x, y, z, g1, g2, g3, g4⟩ <;> simp [*]
    · simp [h1, h2, h3, h4]
  · rcases k1 with ⟨h1, h2, h3⟩ | ⟨x, y, z, h1, h2, h3, h4⟩
    · rcases k3 with ⟨g1, g2, g3⟩ | ⟨x, y, z, g1, g2, g3, g4⟩ <;> simp [*]
    · simp [h1, h2, h3, h4]
  · rcases k1 with ⟨h1, h2, h3⟩ | ⟨x, y, z, h1, h2, h3, h4⟩
    · rcases k3 with ⟨g1, g2, g3⟩ | ⟨x, y, z, g1, g2, g3, g4⟩
      · rcases k2 with ⟨e1, e2, e3⟩ | ⟨x, y, z, e1, e2, e3, e4⟩
        · rcases k4 with ⟨d1, d2, d3⟩ | ⟨x, y, z, d1, d2, d3, d4⟩ <;> simp [*]
        · simp [h1, h2, h3, g1, g2, g3, e1, e2, e3, e4]
      · simp [h1, h2, h3, g1, g2, g3, g4]
    · simp [h1, h2, h3, h4]
  · exact hv i

/-- The tensors are real-linear in the coefficients. -/
theorem jval_linear (L : List String) {C C1 C2 : Dict String ℂ} {r s : ℝ}
    (h : ∀ k, Dict.getD C k 0 = (r : ℂ) * Dict.getD C1 k 0 + (s : ℂ) * Dict.getD C2 k 0) (x : JSrc) :
    jval L C x = (r : ℂ) * jval L C1 x + (s : ℂ) * jval L C2 x := by
  unfold jval
  refine fillOpt_map ?_ ?_ ?_ _
  · intro j; unfold listedOpt; split <;> rfl
  · intro j; unfold listedOpt; split <;> rfl
  · intro j; unfold listedOpt
    by_cases hj : label x.1 j ∈ L
    · simp only [if_pos hj]; exact h _
    · simp only [if_neg hj]; simp

end Verif
