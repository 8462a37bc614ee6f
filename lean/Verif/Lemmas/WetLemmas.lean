import Verif.Model.Wet

/-! Evaluation of coefficient tables. -/

set_option autoImplicit false

namespace Verif

theorem except_ok_bind {α β : Type} (a : α) (f : α → Except PyErr β) : (Except.ok a >>= f) = f a := rfl

theorem except_error_bind {α β : Type} (e : PyErr) (f : α → Except PyErr β) : (Except.error e >>= f) = Except.error e := rfl

namespace Ex

variable {S T : Type}

/-- The entries read by an expression. -/
def sources : Ex S → List S
  | src s => [s]
  | zero => []
  | cj e => e.sources
  | neg e => e.sources
  | add a b => a.sources ++ b.sources
  | sub a b => a.sources ++ b.sources
  | smul _ e => e.sources
  | sdiv e _ => e.sources

/-- Value if all entries can be read. -/
noncomputable def val (v : S → ℂ) : Ex S → ℂ
  | src s => v s
  | zero => 0
  | cj e => starRingEnd ℂ (e.val v)
  | neg e => -(e.val v)
  | add a b => a.val v + b.val v
  | sub a b => a.val v - b.val v
  | smul c e => c * e.val v
  | sdiv e c => e.val v / c

theorem eval_ok {rd : S → Except PyErr ℂ} {v : S → ℂ} (e : Ex S) (h : ∀ s ∈ e.sources, rd s = .ok (v s)) :
    e.eval rd = .ok (e.val v) := by
  induction e with
  | src s => exact h s (by simp [sources])
  | zero => rfl
  | cj e ih => rw [eval, ih h, except_ok_bind]; rfl
  | neg e ih => rw [eval, ih h, except_ok_bind]; rfl
  | add a b iha ihb =>
    rw [eval, iha fun s hs => h s (by simp [sources, hs]), except_ok_bind,
      ihb fun s hs => h s (by simp [sources, hs]), except_ok_bind]; rfl
  | sub a b iha ihb =>
    rw [eval, iha fun s hs => h s (by simp [sources, hs]), except_ok_bind,
      ihb fun s hs => h s (by simp [sources, hs]), except_ok_bind]; rfl
  | smul c e ih => rw [eval, ih h, except_ok_bind]; rfl
  | sdiv e c ih => rw [eval, ih h, except_ok_bind]; rfl

theorem eval_inv {rd : S → Except PyErr ℂ} {x : ℂ} (e : Ex S) (h : e.eval rd = .ok x) :
    ∀ s ∈ e.sources, ∃ v, rd s = .ok v := by
  have bind1 : ∀ {α : Type} {m : Except PyErr α} {f : α → Except PyErr ℂ} {x : ℂ}, (m >>= f) = .ok x → ∃ a, m = .ok a ∧ f a = .ok x := by
    intro α m f x h
    cases m with
    | error e => cases h
    | ok a => exact ⟨a, rfl, h⟩
  induction e generalizing x with
  | src s =>
    intro t ht
    simp only [sources, List.mem_singleton] at ht
    subst ht
    exact ⟨x, h⟩
  | zero => intro s hs; simp [sources] at hs
  | cj e ih => obtain ⟨a, ha, -⟩ := bind1 h; exact ih ha
  | neg e ih => obtain ⟨a, ha, -⟩ := bind1 h; exact ih ha
  | smul c e ih => obtain ⟨a, ha, -⟩ := bind1 h; exact ih ha
  | sdiv e c ih => obtain ⟨a, ha, -⟩ := bind1 h; exact ih ha
  | add a b iha ihb =>
    obtain ⟨x, hx, h'⟩ := bind1 h
    obtain ⟨y, hy, -⟩ := bind1 h'
    intro s hs
    rcases List.mem_append.1 hs with hs | hs
    · exact iha hx s hs
    · exact ihb hy s hs
  | sub a b iha ihb =>
    obtain ⟨x, hx, h'⟩ := bind1 h
    obtain ⟨y, hy, -⟩ := bind1 h'
    intro s hs
    rcases List.mem_append.1 hs with hs | hs
    · exact iha hx s hs
    · exact ihb hy s hs

theorem val_congr {v w : S → ℂ} (e : Ex S) (h : ∀ s ∈ e.sources, v s = w s) : e.val v = e.val w := by
  induction e with
  | src s => exact h s (by simp [sources])
  | zero => rfl
  | cj e ih => simp only [val, ih h]
  | neg e ih => simp only [val, ih h]
  | add a b iha ihb => simp only [val, iha fun s hs => h s (by simp [sources, hs]), ihb fun s hs => h s (by simp [sources, hs])]
  | sub a b iha ihb => simp only [val, iha fun s hs => h s (by simp [sources, hs]), ihb fun s hs => h s (by simp [sources, hs])]
  | smul c e ih => simp only [val, ih h]
  | sdiv e c ih => simp only [val, ih h]

/-- Expressions are additive. -/
theorem val_add' {v w : S → ℂ} (e : Ex S) : (e.val fun s => v s + w s) = e.val v + e.val w := by
  induction e with
  | src s => rfl
  | zero => simp [val]
  | cj e ih => simp [val, ih]
  | neg e ih => simp only [val, ih]; ring
  | add a b iha ihb => simp only [val, iha, ihb]; ring
  | sub a b iha ihb => simp only [val, iha, ihb]; ring
  | smul c e ih => simp only [val, ih]; ring
  | sdiv e c ih => simp only [val, ih]; ring

/-- Expressions commute with real factors. -/
theorem val_real {v : S → ℂ} (r : ℝ) (e : Ex S) : (e.val fun s => (r : ℂ) * v s) = (r : ℂ) * e.val v := by
  induction e with
  | src s => rfl
  | zero => simp [val]
  | cj e ih => simp [val, ih]
  | neg e ih => simp only [val, ih]; ring
  | add a b iha ihb => simp only [val, iha, ihb]; ring
  | sub a b iha ihb => simp only [val, iha, ihb]; ring
  | smul c e ih => simp only [val, ih]; ring
  | sdiv e c ih => simp only [val, ih]; ring

@[simp] theorem val_src (v : S → ℂ) (s : S) : (src s).val v = v s := rfl
@[simp] theorem val_zero (v : S → ℂ) : (zero : Ex S).val v = 0 := rfl
@[simp] theorem val_cj (v : S → ℂ) (e : Ex S) : (cj e).val v = starRingEnd ℂ (e.val v) := rfl
@[simp] theorem val_neg (v : S → ℂ) (e : Ex S) : (-e).val v = -e.val v := rfl
@[simp] theorem val_add (v : S → ℂ) (a b : Ex S) : (a + b).val v = a.val v + b.val v := rfl
@[simp] theorem val_sub (v : S → ℂ) (a b : Ex S) : (a - b).val v = a.val v - b.val v := rfl
@[simp] theorem val_mul (v : S → ℂ) (c : ℂ) (e : Ex S) : (c * e).val v = c * e.val v := rfl
@[simp] theorem val_div (v : S → ℂ) (e : Ex S) (c : ℂ) : (e / c).val v = e.val v / c := rfl

@[simp] theorem sources_src (s : S) : (src s).sources = [s] := rfl
@[simp] theorem sources_zero : (zero : Ex S).sources = [] := rfl
@[simp] theorem sources_cj (e : Ex S) : (cj e).sources = e.sources := rfl
@[simp] theorem sources_neg (e : Ex S) : (-e).sources = e.sources := rfl
@[simp] theorem sources_add (a b : Ex S) : (a + b).sources = a.sources ++ b.sources := rfl
@[simp] theorem sources_sub (a b : Ex S) : (a - b).sources = a.sources ++ b.sources := rfl
@[simp] theorem sources_mul (c : ℂ) (e : Ex S) : (c * e).sources = e.sources := rfl
@[simp] theorem sources_div (e : Ex S) (c : ℂ) : (e / c).sources = e.sources := rfl

end Ex

section Blocks

variable {S : Type}

/-- Entries read by a table. -/
def bsources (b : Block S) : List S := b.flatMap fun p => p.2.sources

/-- Keys of a table. -/
def bkeys (b : Block S) : List String := b.map Prod.fst

/-- Values of a table if all entries can be read. -/
noncomputable def bval (v : S → ℂ) (b : Block S) : Dict String ℂ := b.map fun p => (p.1, p.2.val v)

@[simp] theorem keys_bval (v : S → ℂ) (b : Block S) : Dict.keys (bval v b) = bkeys b := by
  simp [Dict.keys, bval, bkeys]

theorem evalBlock_ok {rd : S → Except PyErr ℂ} {v : S → ℂ} (b : Block S) (h : ∀ s ∈ bsources b, rd s = .ok (v s)) :
    evalBlock rd b = .ok (bval v b) := by
  induction b with
  | nil => rfl
  | cons p b ih =>
    have h1 : p.2.eval rd = .ok (p.2.val v) := Ex.eval_ok _ fun s hs => h s (by simp [bsources, hs])
    have h2 : evalBlock rd b = .ok (bval v b) := ih fun s hs => h s (by
      simp only [bsources, List.flatMap_cons, List.mem_append]; exact Or.inr hs)
    unfold evalBlock at h2 ⊢
    rw [List.mapM_cons, h1, h2]; rfl

theorem evalBlock_inv {rd : S → Except PyErr ℂ} {d : Dict String ℂ} (b : Block S) (h : evalBlock rd b = .ok d) :
    ∀ s ∈ bsources b, ∃ v, rd s = .ok v := by
  induction b generalizing d with
  | nil => intro s hs; simp [bsources] at hs
  | cons p b ih =>
    unfold evalBlock at h
    rw [List.mapM_cons] at h
    cases h1 : p.2.eval rd with
    | error e => rw [h1] at h; cases h
    | ok x =>
      rw [h1] at h
      cases h2 : evalBlock rd b with
      | error e => unfold evalBlock at h2; rw [h2] at h; cases h
      | ok y =>
        intro s hs
        rw [bsources, List.flatMap_cons, List.mem_append] at hs
        rcases hs with hs | hs
        · exact Ex.eval_inv _ h1 s hs
        · exact ih h2 s hs

theorem find_bval {v : S → ℂ} {b : Block S} (hb : (bkeys b).Nodup) {k : String} {e : Ex S} (h : (k, e) ∈ b) :
    Dict.find (bval v b) k = some (e.val v) := by
  refine Dict.find_of_mem ?_ (List.mem_map.2 ⟨(k, e), h, rfl⟩)
  unfold Dict.WF
  rw [keys_bval]; exact hb

/-- A table evaluated on the dictionary given by another table. -/
theorem call_bval {v : S → ℂ} {b : Block S} {b' : Block String} (hb' : ∀ k ∈ bsources b', k ∈ bkeys b) :
    call (Dict.get (bval v b)) (.ok b') = .ok (bval (fun k => Dict.getD (bval v b) k 0) b') := by
  refine evalBlock_ok _ fun k hk => ?_
  have := hb' k hk
  rw [← keys_bval v, ← Dict.find_isSome_iff, Option.isSome_iff_exists] at this
  obtain ⟨x, hx⟩ := this
  rw [Dict.get_of_find hx, Dict.getD, hx]; rfl

theorem call2_ok {rd : S → Except PyErr ℂ} {v : S → ℂ} {b : Block S} {b' : Block String}
    (h : ∀ s ∈ bsources b, rd s = .ok (v s)) (hb' : ∀ k ∈ bsources b', k ∈ bkeys b) :
    call2 rd (.ok b) (.ok b') = .ok (bval (fun k => Dict.getD (bval v b) k 0) b') := by
  have h1 : call rd (.ok b) = .ok (bval v b) := evalBlock_ok _ h
  unfold call2
  rw [h1, except_ok_bind]
  exact call_bval hb'

theorem bval_append (v : S → ℂ) (a b : Block S) : bval v (a ++ b) = bval v a ++ bval v b := List.map_append

theorem bkeys_scaleBy (c : ℂ) (b : Block S) : bkeys (scaleBy c b) = bkeys b := by
  simp [bkeys, scaleBy]

theorem bkeys_divideBy (c : ℂ) (b : Block S) : bkeys (divideBy c b) = bkeys b := by
  simp [bkeys, divideBy]

theorem bsources_scaleBy (c : ℂ) (b : Block S) : bsources (scaleBy c b) = bsources b := by
  simp [bsources, scaleBy, List.flatMap_map]

theorem bsources_divideBy (c : ℂ) (b : Block S) : bsources (divideBy c b) = bsources b := by
  simp [bsources, divideBy, List.flatMap_map]

theorem bval_scaleBy (v : S → ℂ) (c : ℂ) (b : Block S) : bval v (scaleBy c b) = Dict.mapVals (c * ·) (bval v b) := by
  simp [bval, scaleBy, Dict.mapVals]

theorem bval_divideBy (v : S → ℂ) (c : ℂ) (b : Block S) : bval v (divideBy c b) = Dict.mapVals (· / c) (bval v b) := by
  simp [bval, divideBy, Dict.mapVals]

theorem bval_congr {v w : S → ℂ} {b : Block S} (h : ∀ s ∈ bsources b, v s = w s) : bval v b = bval w b := by
  refine List.map_congr_left fun p hp => ?_
  rw [Ex.val_congr p.2 fun s hs => h s (List.mem_flatMap.2 ⟨p, hp, hs⟩)]

theorem bval_real (v : S → ℂ) (r : ℝ) (b : Block S) :
    bval (fun s => (r : ℂ) * v s) b = Dict.mapVals (fun x => (r : ℂ) * x) (bval v b) := by
  simp [bval, Dict.mapVals, Ex.val_real]

end Blocks

/-! ### Sequences of updates -/

theorem updAll_ok {ds : List (Dict String ℂ)} (d : Dict String ℂ) :
    updAll (ds.map Except.ok) d = .ok (ds.foldl Dict.upd d) := by
  induction ds generalizing d with
  | nil => rfl
  | cons e ds ih => rw [List.map_cons, updAll, except_ok_bind, ih]; rfl

theorem foldl_upd_append {ds : List (Dict String ℂ)} (d : Dict String ℂ) (h : (Dict.keys (d ++ ds.flatten)).Nodup) :
    ds.foldl Dict.upd d = d ++ ds.flatten := by
  induction ds generalizing d with
  | nil => simp
  | cons e ds ih =>
    have h' : (Dict.keys ((d ++ e) ++ ds.flatten)).Nodup := by simpa using h
    have h1 : (Dict.keys (d ++ e)).Nodup := by
      rw [Dict.keys_append] at h'; exact (List.nodup_append.1 h').1
    rw [Dict.keys_append] at h1
    have h2 := List.nodup_append.1 h1
    have hu : Dict.upd d e = d ++ e := Dict.upd_of_disjoint h2.2.1 fun k hk hk' => h2.2.2 k hk' k hk rfl
    rw [List.foldl_cons, hu, ih _ h']; simp

/-- Updates with distinct keys are concatenation. -/
theorem updAll_append {js : Jobs} {ds : List (Dict String ℂ)} (hj : js = ds.map Except.ok)
    (h : (Dict.keys ds.flatten).Nodup) : updAll js [] = .ok ds.flatten := by
  subst hj
  rw [updAll_ok, foldl_upd_append [] (by simpa using h)]; simp

theorem updAll_inv {js : Jobs} {d0 d : Dict String ℂ} (h : updAll js d0 = .ok d) : ∀ j ∈ js, ∃ e, j = .ok e := by
  induction js generalizing d0 with
  | nil => intro j hj; cases hj
  | cons x xs ih =>
    cases x with
    | error e => rw [updAll, except_error_bind] at h; cases h
    | ok e =>
      rw [updAll, except_ok_bind] at h
      intro j hj
      rcases List.mem_cons.1 hj with rfl | hj
      · exact ⟨e, rfl⟩
      · exact ih h j hj

end Verif
