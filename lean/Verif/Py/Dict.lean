import Mathlib.Data.List.Basic
import Mathlib.Data.List.Nodup
import Mathlib.Data.List.Perm.Basic
import Mathlib.Tactic.Common

/-!
Python dictionaries and exceptions.

A `dict` (CPython ≥ 3.7) or `OrderedDict` is an insertion-ordered finite map. It is modelled by an
association list; the well-formedness condition is that no key is repeated (`Dict.WF`), and every
operation below keeps it.
-/

set_option autoImplicit false

namespace Verif

/-- Exceptions raised by the modelled code. `ValueError` carries a short tag naming the `raise`
statement. `unmodelled` marks a behaviour outside the model (each use is explained at its place);
`nan` marks the read of an array entry that still holds `np.nan`. -/
inductive PyErr where
  | keyError
  | valueError (why : String)
  | attributeError
  | typeError
  | indexError
  | assertionError
  | unboundLocal
  | fileNotFound
  | yamlError
  | zeroDivision
  | nan
  | eofError
  | unmodelled
  deriving DecidableEq, Repr

/-- Insertion-ordered dictionary. -/
abbrev Dict (κ ν : Type*) := List (κ × ν)

namespace Dict

variable {κ ν ν' : Type*}

/-- `list(d)` / `d.keys()`. -/
def keys (d : Dict κ ν) : List κ := d.map Prod.fst

/-- No repeated key. -/
def WF (d : Dict κ ν) : Prop := (keys d).Nodup

section
variable [DecidableEq κ]

/-- `d.get(k)` with `none` for absent. -/
def find : Dict κ ν → κ → Option ν
  | [], _ => none
  | p :: d, k => if p.1 = k then some p.2 else find d k

/-- `d[k]`, raising `KeyError`. -/
def get (d : Dict κ ν) (k : κ) : Except PyErr ν :=
  match find d k with
  | some v => .ok v
  | none => .error .keyError

/-- `d.get(k, v0)`. -/
def getD (d : Dict κ ν) (k : κ) (v0 : ν) : ν := (find d k).getD v0

/-- `k in d`. -/
def has (d : Dict κ ν) (k : κ) : Bool := (find d k).isSome

/-- `d[k] = v`: replaces in place or appends. -/
def put : Dict κ ν → κ → ν → Dict κ ν
  | [], k, v => [(k, v)]
  | p :: d, k, v => if p.1 = k then (p.1, v) :: d else p :: put d k v

/-- `del d[k]` on a dictionary (the `KeyError` for an absent key is raised by the caller). -/
def del : Dict κ ν → κ → Dict κ ν
  | [], _ => []
  | p :: d, k => if p.1 = k then d else p :: del d k

/-- `d.update(e)`. -/
def upd (d e : Dict κ ν) : Dict κ ν := e.foldl (fun d p => put d p.1 p.2) d

/-- `dict(pairs)` / a dict comprehension: later pairs win, first position is kept. -/
def ofPairs (l : List (κ × ν)) : Dict κ ν := upd [] l

end

/-- `{k: f(v) for k, v in d.items()}`. -/
def mapVals (f : ν → ν') (d : Dict κ ν) : Dict κ ν' := d.map fun p => (p.1, f p.2)

/-- `{k: v for k, v in d.items() if c(k, v)}`. -/
def filt (c : κ → ν → Bool) (d : Dict κ ν) : Dict κ ν := d.filter fun p => c p.1 p.2

/-! ### Laws -/

@[simp] theorem keys_nil : keys ([] : Dict κ ν) = [] := rfl
@[simp] theorem keys_cons (p : κ × ν) (d : Dict κ ν) : keys (p :: d) = p.1 :: keys d := rfl
@[simp] theorem keys_append (d e : Dict κ ν) : keys (d ++ e) = keys d ++ keys e := by
  simp [keys]
@[simp] theorem keys_mapVals (f : ν → ν') (d : Dict κ ν) : keys (mapVals f d) = keys d := by
  simp [keys, mapVals, Function.comp_def]

theorem WF_nil : WF ([] : Dict κ ν) := List.nodup_nil

theorem WF.tail {p : κ × ν} {d : Dict κ ν} (h : WF (p :: d)) : WF d := (List.nodup_cons.1 h).2

theorem WF_mapVals {f : ν → ν'} {d : Dict κ ν} (h : WF d) : WF (mapVals f d) := by
  simpa [WF] using h

theorem keys_filt_sublist (c : κ → ν → Bool) (d : Dict κ ν) :
    (keys (filt c d)).Sublist (keys d) := List.Sublist.map _ List.filter_sublist

theorem WF_filt {c : κ → ν → Bool} {d : Dict κ ν} (h : WF d) : WF (filt c d) :=
  h.sublist (keys_filt_sublist c d)

section
variable [DecidableEq κ]

@[simp] theorem find_nil (k : κ) : find ([] : Dict κ ν) k = none := rfl

theorem find_cons (p : κ × ν) (d : Dict κ ν) (k : κ) :
    find (p :: d) k = if p.1 = k then some p.2 else find d k := rfl

theorem find_append (d e : Dict κ ν) (k : κ) : find (d ++ e) k = (find d k).or (find e k) := by
  induction d with
  | nil => simp
  | cons p d ih => by_cases h : p.1 = k <;> simp [find_cons, h, ih]

theorem find_eq_none_iff {d : Dict κ ν} {k : κ} : find d k = none ↔ k ∉ keys d := by
  induction d with
  | nil => simp
  | cons p d ih =>
    by_cases h : p.1 = k
    · simp [find_cons, h]
    · simp [find_cons, h, ih, Ne.symm h]

theorem find_isSome_iff {d : Dict κ ν} {k : κ} : (find d k).isSome ↔ k ∈ keys d := by
  rw [Option.isSome_iff_ne_none, ne_eq, find_eq_none_iff, not_not]

theorem has_iff {d : Dict κ ν} {k : κ} : has d k = true ↔ k ∈ keys d := find_isSome_iff

theorem mem_of_find {d : Dict κ ν} {k : κ} {v : ν} (h : find d k = some v) : (k, v) ∈ d := by
  induction d with
  | nil => simp at h
  | cons p d ih =>
    by_cases hp : p.1 = k
    · simp [find_cons, hp] at h; subst hp h; simp
    · simp [find_cons, hp] at h; exact List.mem_cons_of_mem _ (ih h)

theorem find_of_mem {d : Dict κ ν} (hd : WF d) {k : κ} {v : ν} (h : (k, v) ∈ d) :
    find d k = some v := by
  induction d with
  | nil => simp at h
  | cons p d ih =>
    rcases List.mem_cons.1 h with h | h
    · subst h; simp [find_cons]
    · have hne : p.1 ≠ k := by
        intro he
        have := (List.nodup_cons.1 hd).1
        exact this (he ▸ List.mem_map_of_mem (f := Prod.fst) h)
      simp [find_cons, hne, ih hd.tail h]

theorem find_eq_some_iff {d : Dict κ ν} (hd : WF d) {k : κ} {v : ν} :
    find d k = some v ↔ (k, v) ∈ d := ⟨mem_of_find, find_of_mem hd⟩

theorem find_put (d : Dict κ ν) (k k' : κ) (v : ν) :
    find (put d k v) k' = if k = k' then some v else find d k' := by
  induction d with
  | nil => simp [put, find_cons]
  | cons p d ih =>
    by_cases h : p.1 = k
    · by_cases h' : k = k'
      · simp [put, h, find_cons, h']
      · simp [put, h, find_cons, h']
    · simp only [put, h, if_false, find_cons, ih]
      by_cases h' : k = k'
      · subst h'; simp [h]
      · simp [h']

theorem mem_keys_put {d : Dict κ ν} {k k' : κ} {v : ν} :
    k' ∈ keys (put d k v) ↔ k' = k ∨ k' ∈ keys d := by
  rw [← find_isSome_iff, find_put]
  by_cases h : k = k'
  · simp [h]
  · simp [h, Ne.symm h, find_isSome_iff]

/-- A new key is appended, an old one keeps its position. -/
theorem keys_put (d : Dict κ ν) (k : κ) (v : ν) :
    keys (put d k v) = if k ∈ keys d then keys d else keys d ++ [k] := by
  induction d with
  | nil => simp [put]
  | cons p d ih =>
    by_cases h : p.1 = k
    · simp [put, h]
    · simp only [put, h, if_false, keys_cons, ih, List.mem_cons, Ne.symm h, false_or]
      split_ifs <;> simp

theorem WF_put {d : Dict κ ν} (h : WF d) (k : κ) (v : ν) : WF (put d k v) := by
  unfold WF at *
  rw [keys_put]
  split_ifs with hk
  · exact h
  · exact List.Nodup.append h (List.nodup_singleton _) (by simpa using hk)

theorem keys_del (d : Dict κ ν) (k : κ) : keys (del d k) = (keys d).erase k := by
  induction d with
  | nil => simp [del]
  | cons p d ih =>
    by_cases h : p.1 = k
    · simp [del, h]
    · simp [del, h, ih, List.erase_cons_tail]

theorem keys_del_filter {d : Dict κ ν} (h : WF d) (k : κ) :
    keys (del d k) = (keys d).filter fun k' => decide (k' ≠ k) := by
  rw [keys_del, List.Nodup.erase_eq_filter h]
  apply List.filter_congr
  intro a _
  by_cases hak : a = k <;> simp [hak]

theorem WF_del {d : Dict κ ν} (h : WF d) (k : κ) : WF (del d k) := by
  unfold WF at *; rw [keys_del]; exact h.erase k

theorem find_del {d : Dict κ ν} (hd : WF d) (k k' : κ) :
    find (del d k) k' = if k = k' then none else find d k' := by
  induction d with
  | nil => simp [del]
  | cons p d ih =>
    by_cases h : p.1 = k
    · by_cases h' : k = k'
      · subst h'
        simp only [del, h, if_true]
        exact find_eq_none_iff.2 (h ▸ (List.nodup_cons.1 hd).1)
      · simp [del, h, find_cons, h']
    · simp only [del, h, if_false, find_cons, ih hd.tail]
      by_cases h' : k = k'
      · subst h'; simp [h]
      · simp [h']

@[simp] theorem upd_nil (d : Dict κ ν) : upd d [] = d := rfl
@[simp] theorem upd_cons (d : Dict κ ν) (p : κ × ν) (e : Dict κ ν) :
    upd d (p :: e) = upd (put d p.1 p.2) e := rfl

theorem upd_append (d e f : Dict κ ν) : upd d (e ++ f) = upd (upd d e) f := by
  simp [upd, List.foldl_append]

theorem WF_upd {d : Dict κ ν} (h : WF d) (e : Dict κ ν) : WF (upd d e) := by
  induction e generalizing d with
  | nil => exact h
  | cons p e ih => exact ih (WF_put h _ _)

theorem mem_keys_upd {d e : Dict κ ν} {k : κ} : k ∈ keys (upd d e) ↔ k ∈ keys d ∨ k ∈ keys e := by
  induction e generalizing d with
  | nil => simp
  | cons p e ih => rw [upd_cons, ih, mem_keys_put]; simp [or_comm, or_assoc, or_left_comm]

/-- `d.update(e)` for a dictionary `e`: entries of `e` win. -/
theorem find_upd {e : Dict κ ν} (he : WF e) (d : Dict κ ν) (k : κ) :
    find (upd d e) k = (find e k).or (find d k) := by
  induction e generalizing d with
  | nil => simp
  | cons p e ih =>
    rw [upd_cons, ih he.tail, find_put, find_cons]
    by_cases h : p.1 = k
    · have : find e k = none := find_eq_none_iff.2 (h ▸ (List.nodup_cons.1 he).1)
      simp [h, this]
    · simp [h]

theorem put_of_not_mem {d : Dict κ ν} {k : κ} (h : k ∉ keys d) (v : ν) : put d k v = d ++ [(k, v)] := by
  induction d with
  | nil => rfl
  | cons p d ih =>
    simp only [keys_cons, List.mem_cons, not_or] at h
    simp [put, Ne.symm h.1, ih h.2]

/-- Updating with fresh keys appends. -/
theorem upd_of_disjoint {d e : Dict κ ν} (he : WF e) (h : ∀ k ∈ keys e, k ∉ keys d) :
    upd d e = d ++ e := by
  induction e generalizing d with
  | nil => simp
  | cons p e ih =>
    rw [upd_cons, put_of_not_mem (h p.1 (by simp)), ih he.tail]
    · simp
    · intro k hk
      have hne : k ≠ p.1 := fun e' => (List.nodup_cons.1 he).1 (e' ▸ hk)
      simp [h k (by simp [hk]), hne]

theorem ofPairs_of_nodup {l : List (κ × ν)} (h : WF l) : ofPairs l = l := by
  unfold ofPairs; rw [upd_of_disjoint h (by simp)]; rfl

theorem WF_ofPairs (l : List (κ × ν)) : WF (ofPairs l) := WF_upd WF_nil l

theorem find_ofPairs {l : Dict κ ν} (h : WF l) (k : κ) : find (ofPairs l) k = find l k := by
  rw [ofPairs_of_nodup h]

theorem find_mapVals (f : ν → ν') (d : Dict κ ν) (k : κ) :
    find (mapVals f d) k = (find d k).map f := by
  induction d with
  | nil => simp [mapVals]
  | cons p d ih =>
    have : mapVals f (p :: d) = (p.1, f p.2) :: mapVals f d := rfl
    rw [this, find_cons, find_cons, ih]
    split_ifs <;> simp

theorem find_filt {d : Dict κ ν} (hd : WF d) (c : κ → ν → Bool) (k : κ) :
    find (filt c d) k = (find d k).filter (c k) := by
  induction d with
  | nil => simp [filt]
  | cons p d ih =>
    have ih := ih hd.tail
    by_cases h : p.1 = k
    · subst h
      by_cases hc : c p.1 p.2
      · simp [filt, hc, find_cons, Option.filter]
      · have hn : find d p.1 = none := find_eq_none_iff.2 (List.nodup_cons.1 hd).1
        have : filt c (p :: d) = filt c d := by simp [filt, hc]
        rw [this, ih, hn]; simp [find_cons, hc, Option.filter]
    · by_cases hc : c p.1 p.2
      · have : filt c (p :: d) = p :: filt c d := by simp [filt, hc]
        rw [this, find_cons, find_cons]; simp [h, ih]
      · have : filt c (p :: d) = filt c d := by simp [filt, hc]
        rw [this, ih, find_cons]; simp [h]

omit [DecidableEq κ] in
theorem mem_keys_filt {d : Dict κ ν} {c : κ → ν → Bool} {k : κ} :
    k ∈ keys (filt c d) ↔ ∃ v, (k, v) ∈ d ∧ c k v = true := by
  simp [keys, filt]

theorem get_ok_iff {d : Dict κ ν} {k : κ} {v : ν} : get d k = .ok v ↔ find d k = some v := by
  unfold get; cases find d k <;> simp

theorem get_error_iff {d : Dict κ ν} {k : κ} {e : PyErr} :
    get d k = .error e ↔ find d k = none ∧ e = .keyError := by
  unfold get; cases find d k <;> simp [eq_comm]

theorem get_of_find {d : Dict κ ν} {k : κ} {v : ν} (h : find d k = some v) : get d k = .ok v :=
  get_ok_iff.2 h

/-- Two dictionaries with the same lookups have the same keys. -/
theorem mem_keys_congr {d e : Dict κ ν} (h : ∀ k, find d k = find e k) (k : κ) :
    k ∈ keys d ↔ k ∈ keys e := by
  rw [← find_isSome_iff, ← find_isSome_iff, h]

end
end Dict
end Verif
