import Verif.Model.Classes

/-! Helper lemmas on Wilson coefficient objects. -/

set_option autoImplicit false

namespace Verif

theorem WC.dict_of_noCache {fl : String → Option ℝ} {w : WC} (h : w.cache = .none) :
    w.dict fl = convertValues fl w.values := by
  unfold WC.dict WC.readDict
  rw [h]
  cases convertValues fl w.values <;> rfl

theorem mapM_ok_map {α β γ : Type} (f : β → Except PyErr γ) (g : α → β) (k : α → γ) (l : List α)
    (h : ∀ x ∈ l, f (g x) = .ok (k x)) : (l.map g).mapM f = .ok (l.map k) := by
  induction l with
  | nil => rfl
  | cons a l ih =>
    rw [List.map_cons, List.mapM_cons, h a (by simp), ih (fun x hx => h x (by simp [hx]))]
    rfl

theorem mapM_ok_iff {α β : Type} (f : α → Except PyErr β) (l : List α) :
    (∃ r, l.mapM f = .ok r) ↔ ∀ x ∈ l, ∃ y, f x = .ok y := by
  induction l with
  | nil => simp [List.mapM_nil, pure, Except.pure]
  | cons a l ih =>
    rw [List.mapM_cons]
    cases ha : f a with
    | error e => simp [bind, Except.bind, ha]
    | ok y =>
      simp only [List.mem_cons, forall_eq_or_imp, ha]
      rw [← ih]
      cases l.mapM f <;> simp [bind, Except.bind, pure, Except.pure]

theorem convertValues_obj_ok_iff (fl : String → Option ℝ) (vs : Dict String JVal) :
    (∃ d, convertValues fl (.obj vs) = .ok d) ↔ ∀ p ∈ vs, ∃ z, toNumber fl p.2 = .ok z := by
  have h1 := mapM_ok_iff (fun p : String × JVal => (toNumber fl p.2 >>= fun z => pure (p.1, z))) vs
  have h2 : ∀ p : String × JVal,
      (∃ y, (toNumber fl p.2 >>= fun z => pure (p.1, z)) = (Except.ok y : Except PyErr _)) ↔
      ∃ z, toNumber fl p.2 = .ok z := by
    intro p
    cases toNumber fl p.2 <;> simp [bind, Except.bind, pure, Except.pure]
  simp only [h2] at h1
  exact h1

/-- Converting keeps the keys and their order, entry by entry. -/
theorem convertValues_obj_cons (fl : String → Option ℝ) (p : String × JVal) (vs : Dict String JVal)
    {z : ℂ} {d : Dict String ℂ} (hz : toNumber fl p.2 = .ok z)
    (hd : convertValues fl (.obj vs) = .ok d) :
    convertValues fl (.obj (p :: vs)) = .ok ((p.1, z) :: d) := by
  have hd' : List.mapM (fun p : String × JVal => (toNumber fl p.2 >>= fun z => pure (p.1, z))) vs = .ok d := hd
  change List.mapM (fun p : String × JVal => (toNumber fl p.2 >>= fun z => pure (p.1, z))) (p :: vs) = _
  rw [List.mapM_cons, hz, hd']
  rfl

theorem convertValues_keys {fl : String → Option ℝ} {vs : Dict String JVal} {d : Dict String ℂ}
    (h : convertValues fl (.obj vs) = .ok d) :
    Dict.keys d = Dict.keys vs ∧ ∀ (i : Nat) (p : String × JVal) (q : String × ℂ), vs[i]? = some p → d[i]? = some q →
      q.1 = p.1 ∧ toNumber fl p.2 = .ok q.2 := by
  induction vs generalizing d with
  | nil =>
    have : d = [] := by
      simp [convertValues, itemsOf, bind, Except.bind, List.mapM_nil, pure, Except.pure] at h
      exact h
    subst this
    simp [Dict.keys]
  | cons p vs ih =>
    have hall := (convertValues_obj_ok_iff fl (p :: vs)).1 ⟨d, h⟩
    obtain ⟨z, hz⟩ := hall p (by simp)
    obtain ⟨d', hd'⟩ := (convertValues_obj_ok_iff fl vs).2 (fun q hq => hall q (by simp [hq]))
    rw [convertValues_obj_cons fl p vs hz hd'] at h
    cases h
    obtain ⟨h1, h2⟩ := ih hd'
    refine ⟨by simpa [Dict.keys] using h1, ?_⟩
    intro i p' q hp hq
    cases i with
    | zero =>
      simp only [List.getElem?_cons_zero, Option.some.injEq] at hp hq
      subst hp; subst hq
      exact ⟨rfl, hz⟩
    | succ i =>
      simp only [List.getElem?_cons_succ] at hp hq
      exact h2 i p' q hp hq

end Verif
