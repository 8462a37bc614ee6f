import Verif.Model.IO
import Verif.Spec.Same
import Verif.Lemmas.WCLemmas
import Verif.Lemmas.Objects

/-! Helper lemmas on reading and writing files. -/

set_option autoImplicit false

namespace Verif

open Spec

mutual
theorem Spec.Same.refl : (j : JVal) → Same j j
  | .null => .null
  | .bool b => .bool b
  | .num x => .num x
  | .str s => .str s
  | .list l => .list rfl fun i v v' h h' => by
      rw [h] at h'; cases h'; exact Spec.Same.refl_list l i v h
  | .obj d => .obj (List.Perm.refl _) fun k v v' h h' => by
      rw [h] at h'; cases h'; exact Spec.Same.refl_obj d k v h
theorem Spec.Same.refl_list : (l : List JVal) → ∀ (i : Nat) (v : JVal), l[i]? = some v → Same v v
  | [], i, v, h => by simp at h
  | j :: l, 0, v, h => by
      simp only [List.getElem?_cons_zero, Option.some.injEq] at h
      rw [← h]; exact Spec.Same.refl j
  | j :: l, i + 1, v, h => Spec.Same.refl_list l i v (by simpa using h)
theorem Spec.Same.refl_obj : (d : List (String × JVal)) → ∀ (k : String) (v : JVal), Dict.find d k = some v → Same v v
  | [], k, v, h => by simp at h
  | (k', j) :: d, k, v, h => by
      by_cases hk : k' = k
      · simp only [Dict.find_cons, hk, if_true, Option.some.injEq] at h
        rw [← h]; exact Spec.Same.refl j
      · simp only [Dict.find_cons, hk, if_false] at h
        exact Spec.Same.refl_obj d k v h
end

theorem Spec.Same.find_none {d d' : Dict String JVal} (h : Same (.obj d) (.obj d')) (k : String) :
    Dict.find d k = none ↔ Dict.find d' k = none := by
  cases h with
  | obj hkeys h => rw [Dict.find_eq_none_iff, Dict.find_eq_none_iff, hkeys.mem_iff]

theorem Spec.Same.find_some {d d' : Dict String JVal} (h : Same (.obj d) (.obj d')) {k : String} {v : JVal}
    (hv : Dict.find d k = some v) : ∃ v', Dict.find d' k = some v' ∧ Same v v' := by
  cases hv' : Dict.find d' k with
  | none => rw [(h.find_none k).2 hv'] at hv; simp at hv
  | some v' =>
    cases h with
    | obj hkeys h => exact ⟨v', rfl, h k v v' hv hv'⟩

theorem Spec.Same.find_some' {d d' : Dict String JVal} (h : Same (.obj d) (.obj d')) {k : String} {v' : JVal}
    (hv' : Dict.find d' k = some v') : ∃ v, Dict.find d k = some v ∧ Same v v' := by
  cases hv : Dict.find d k with
  | none => rw [(h.find_none k).1 hv] at hv'; simp at hv'
  | some v =>
    cases h with
    | obj hkeys h => exact ⟨v, rfl, h k v v' hv hv'⟩

theorem Spec.Same.obj_inv {d : Dict String JVal} {j : JVal} (h : Same (.obj d) j) : ∃ d', j = .obj d' := by
  cases h with
  | obj hkeys h => exact ⟨_, rfl⟩

theorem pyFloat_same (fl : String → Option ℝ) {j j' : JVal} (h : Same j j') : pyFloat fl j = pyFloat fl j' := by
  cases h <;> rfl

theorem toNumber_same (fl : String → Option ℝ) {j j' : JVal} (h : Same j j') :
    toNumber fl j = toNumber fl j' := by
  have h0 := h
  cases h with
  | @obj d d' hkeys h =>
    have key : ∀ k, pyFloat fl (Dict.getD d k (.num 0)) = pyFloat fl (Dict.getD d' k (.num 0)) := by
      intro k
      unfold Dict.getD
      cases hd : Dict.find d k with
      | none => rw [(h0.find_none k).1 hd]
      | some v =>
        obtain ⟨v', hv', hs⟩ := h0.find_some hd
        rw [hv']; exact pyFloat_same fl hs
    simp only [toNumber, key]
  | _ => rfl

/-- An entry of the numeric dictionary is the conversion of the entry of the values. -/
theorem convertValues_find {fl : String → Option ℝ} {vs : Dict String JVal} {d : Dict String ℂ}
    (h : convertValues fl (.obj vs) = .ok d) (k : String) :
    Dict.find d k = (Dict.find vs k).bind fun v => (toNumber fl v).toOption := by
  induction vs generalizing d with
  | nil =>
    simp [convertValues, itemsOf, bind, Except.bind, List.mapM_nil, pure, Except.pure] at h
    subst h; rfl
  | cons p vs ih =>
    have hall := (convertValues_obj_ok_iff fl (p :: vs)).1 ⟨d, h⟩
    obtain ⟨z, hz⟩ := hall p (by simp)
    obtain ⟨d', hd'⟩ := (convertValues_obj_ok_iff fl vs).2 (fun q hq => hall q (by simp [hq]))
    rw [convertValues_obj_cons fl p vs hz hd'] at h
    cases h
    simp only [Dict.find_cons, ih hd']
    by_cases hk : p.1 = k
    · simp [hk, hz, Except.toOption]
    · simp [hk]

/-- Values that are the same data have the same numeric dictionary up to order. -/
theorem convertValues_same {fl : String → Option ℝ} {vs vs' : Dict String JVal} (hw : Dict.WF vs)
    (h : Same (.obj vs) (.obj vs')) {d : Dict String ℂ} (hd : convertValues fl (.obj vs) = .ok d) :
    ∃ d', convertValues fl (.obj vs') = .ok d' ∧ (Dict.keys d).Perm (Dict.keys d') ∧
      ∀ k, Dict.find d k = Dict.find d' k := by
  have hkeys : (Dict.keys vs).Perm (Dict.keys vs') := by cases h with | obj hkeys _ => exact hkeys
  have hw' : Dict.WF vs' := hkeys.nodup_iff.1 hw
  have hall := (convertValues_obj_ok_iff fl vs).1 ⟨d, hd⟩
  obtain ⟨d', hd'⟩ := (convertValues_obj_ok_iff fl vs').2 (fun q hq => by
    obtain ⟨v, hv, hs⟩ := h.find_some' (Dict.find_of_mem hw' (k := q.1) (v := q.2) hq)
    obtain ⟨z, hz⟩ := hall _ (Dict.mem_of_find hv)
    exact ⟨z, by rw [← toNumber_same fl hs]; exact hz⟩)
  refine ⟨d', hd', ?_, ?_⟩
  · rw [(convertValues_keys hd).1, (convertValues_keys hd').1]; exact hkeys
  · intro k
    rw [convertValues_find hd, convertValues_find hd']
    cases hv : Dict.find vs k with
    | none => rw [(h.find_none k).1 hv]
    | some v =>
      obtain ⟨v', hv', hs⟩ := h.find_some hv
      rw [hv']; simp [toNumber_same fl hs]

theorem keys_upd_of_subset {κ ν : Type} [DecidableEq κ] {d e : Dict κ ν} (h : ∀ k ∈ Dict.keys e, k ∈ Dict.keys d) :
    Dict.keys (Dict.upd d e) = Dict.keys d := by
  induction e generalizing d with
  | nil => rfl
  | cons p e ih =>
    have hp : Dict.keys (Dict.put d p.1 p.2) = Dict.keys d := by
      rw [Dict.keys_put, if_pos (h p.1 (by simp))]
    rw [Dict.upd_cons, ih, hp]
    intro k hk
    rw [hp]; exact h k (by simp [hk])

/-- Overwriting a dictionary with the same data keeps the data. -/
theorem same_upd {s s' : Dict String JVal} (hs : Dict.WF s) (h : Same (.obj s) (.obj s')) :
    Same (.obj s) (.obj (Dict.upd s s')) := by
  have hkeys : (Dict.keys s).Perm (Dict.keys s') := by cases h with | obj hkeys _ => exact hkeys
  have hw' : Dict.WF s' := hkeys.nodup_iff.1 hs
  refine .obj ?_ ?_
  · rw [keys_upd_of_subset (fun k hk => hkeys.mem_iff.2 hk)]
  · intro k v v' hv hv'
    rw [Dict.find_upd hw'] at hv'
    obtain ⟨v'', hv'', hsame⟩ := h.find_some hv
    rw [hv''] at hv'
    simp only [Option.some_or, Option.some.injEq] at hv'
    rw [← hv']; exact hsame

/-- Writing an object all of whose public attributes are file data. -/
theorem dump_of_files (cd : Codec) (attrs : Dict String AVal) (d : Dict String JVal) (fmt out : String)
    (he : "" ∉ Dict.keys attrs)
    (hd : Dict.filt (fun k _ => isPublic k) attrs = d.map fun p => (p.1, AVal.file p.2)) :
    dump cd attrs fmt out =
      if lower fmt = "json" then (out ++ cd.printJson (.obj d), .ok ())
      else if lower fmt = "yaml" then (out ++ cd.printYaml (.obj d), .ok ())
      else (out, .error (.valueError "Format unknown")) := by
  have hm : (d.map fun p => (p.1, AVal.file p.2)).mapM
      (fun p => do let j ← p.2.toFile; return (p.1, j)) = (.ok d : Except PyErr (Dict String JVal)) := by
    have := mapM_ok_map (fun p : String × AVal => (do let j ← p.2.toFile; return (p.1, j) : Except PyErr (String × JVal)))
      (fun p : String × JVal => (p.1, AVal.file p.2)) id d (by intro p _; rfl)
    simpa using this
  unfold dump publicAttrs
  rw [if_neg he]
  dsimp only
  rw [hd, hm]

theorem filt_append {κ ν : Type} (c : κ → ν → Bool) (d e : Dict κ ν) :
    Dict.filt c (d ++ e) = Dict.filt c d ++ Dict.filt c e := by simp [Dict.filt]

theorem filt_map_file (d : Dict String JVal) :
    Dict.filt (fun k _ => isPublic k) (d.map fun p => (p.1, AVal.file p.2)) =
      (Dict.filt (fun k _ => isPublic k) d).map fun p => (p.1, AVal.file p.2) := by
  induction d with
  | nil => rfl
  | cons p d ih =>
    simp only [Dict.filt, List.map_cons, List.filter_cons] at ih ⊢
    split <;> simp [ih]

theorem keys_map_file (d : Dict String JVal) :
    Dict.keys (d.map fun p => (p.1, AVal.file p.2)) = Dict.keys d := by
  simp [Dict.keys, Function.comp_def]

theorem find_filt_neg {d : Dict String JVal} (c : String → JVal → Bool) (k : String)
    (hc : ∀ v, c k v = false) : Dict.find (Dict.filt c d) k = none := by
  rw [Dict.find_eq_none_iff, Dict.mem_keys_filt]
  rintro ⟨v, _, h⟩
  rw [hc v] at h; simp at h

theorem find_filt_pos {d : Dict String JVal} (c : String → JVal → Bool) (k : String)
    (hc : ∀ v, c k v = true) : Dict.find (Dict.filt c d) k = Dict.find d k := by
  induction d with
  | nil => rfl
  | cons p d ih =>
    by_cases hk : p.1 = k
    · have : Dict.filt c (p :: d) = p :: Dict.filt c d := by
        have : c p.1 p.2 = true := by rw [hk]; exact hc _
        simp [Dict.filt, this]
      rw [this]; simp [Dict.find_cons, hk]
    · rw [Dict.find_cons, if_neg hk, ← ih]
      by_cases hp : c p.1 p.2 = true
      · have : Dict.filt c (p :: d) = p :: Dict.filt c d := by simp [Dict.filt, hp]
        rw [this, Dict.find_cons, if_neg hk]
      · have : Dict.filt c (p :: d) = Dict.filt c d := by simp [Dict.filt, hp]
        rw [this]

end Verif
