import Verif.Spec.Validate
import Verif.Props.Basis
import Verif.Lemmas.WCLemmas

/-!
C08–C10: validation of bases and of coefficient files.
-/

set_option autoImplicit false

namespace Verif

open Spec

theorem shape_items {s : Sectors} {sec : List (String × List (String × Option (Dict String JVal)))}
    (h : Shape s sec) :
    s.mapM (fun p => itemsOf p.2) = (.ok (sec.map fun p => p.2.map fun q => (q.1, match q.2 with
      | none => JVal.null
      | some d => .obj d)) : Except PyErr _) := by
  rw [h.data]
  exact mapM_ok_map _ _ _ _ (fun p _ => rfl)

theorem shape_tex {s : Sectors} {sec : List (String × List (String × Option (Dict String JVal)))}
    (h : Shape s sec) :
    allTex (sec.map fun p => p.2.map fun q => (q.1, match q.2 with
      | none => JVal.null
      | some d => .obj d)) = .ok ("$" ++ String.intercalate "$, $" (texStrings sec) ++ "$") := by
  unfold allTex
  have h1 : ((sec.map fun p => p.2.map fun q => (q.1, match q.2 with
      | none => JVal.null
      | some d => .obj d)).flatten.map Prod.snd) =
      (sec.flatMap fun p => p.2).map (fun q => match q.2 with
      | none => JVal.null
      | some d => .obj d) := by
    simp [List.map_flatten, List.flatMap_def, List.map_map, Function.comp_def]
  rw [h1]
  rw [mapM_ok_map texOf _ (fun q => q.2.map fun (d : Dict String JVal) =>
    match Dict.find d "tex" with
    | some (.str t) => t
    | _ => "")]
  · have h2 : texStrings sec = List.filterMap id ((sec.flatMap fun p => p.2).map
        (fun q => q.2.map fun (d : Dict String JVal) =>
          match Dict.find d "tex" with
          | some (.str t) => t
          | _ => "")) := by
      unfold texStrings
      rw [List.filterMap_map, List.filterMap_flatMap]
      rfl
    rw [h2]
    rfl
  · intro q hq
    obtain ⟨p, hp, hq⟩ := List.mem_flatMap.1 hq
    cases hd : q.2 with
    | none => rfl
    | some d =>
      have := h.tex p hp q hq d hd
      unfold texOf
      dsimp only
      cases hj : Dict.find d "tex" with
      | none => simp [hj]
      | some j =>
        obtain ⟨t, rfl⟩ := this j hj
        simp [hj]

/-- **C08.** In every reachable state, for every completely built basis whose sectors have the shape of a
basis file: validation succeeds exactly if its EFT is registered, its sectors are sectors of that
EFT, no coefficient name occurs twice and the collected LaTeX compiles. Each violated condition
raises `ValueError`, and the first violated one (in this order) is reported. -/
theorem C08_basis_validation (ops : List Op) (h4 : ∀ op ∈ ops, op.onFour)
    (tex : String → Except PyErr Bool) (i : Id) (o : BasisObj) (s : Sectors)
    (sec : List (String × List (String × Option (Dict String JVal))))
    (ho : (run ops).objs[i]? = some (.basis o)) (hs : sectorsOf (run ops) i = .ok s) (hsh : Shape s sec) :
    -- EFT not registered
    ((∀ j, (run ops).lookup .eft [o.eft] ≠ .ok j) →
      validateBasis tex (run ops) i = .error (.valueError "EFT not defined")) ∧
    (∀ j eo, (run ops).lookup .eft [o.eft] = .ok j → (run ops).objs[j]? = some (.eft eo) →
      -- an unknown sector
      ((∃ k ∈ Dict.keys s, k ∉ Dict.keys eo.sectors) →
        validateBasis tex (run ops) i = .error (.valueError "Unknown sectors")) ∧
      ((∀ k ∈ Dict.keys s, k ∈ Dict.keys eo.sectors) →
        -- a repeated coefficient
        (¬ (coeffNames sec).Nodup → validateBasis tex (run ops) i =
          .error (.valueError "Duplicate coefficients in different sectors")) ∧
        ((coeffNames sec).Nodup →
          -- LaTeX
          (tex ("$" ++ String.intercalate "$, $" (texStrings sec) ++ "$") = .ok false →
            validateBasis tex (run ops) i =
              .error (.valueError "LaTeX compilation errors encountered")) ∧
          (tex ("$" ++ String.intercalate "$, $" (texStrings sec) ++ "$") = .ok true →
            validateBasis tex (run ops) i = .ok ())))) := by
  have h := good_run ops h4
  have hkeys : ((sec.map fun p => p.2.map fun q => (q.1, match q.2 with
      | none => JVal.null
      | some d => .obj d)).map Dict.keys).flatten = coeffNames sec := by
    simp [coeffNames, List.flatMap_def, Dict.keys, List.map_map, Function.comp_def]
  unfold validateBasis
  rw [ho]
  dsimp only
  constructor
  · intro hno
    cases hl : (run ops).lookup .eft [o.eft] with
    | ok j => exact absurd hl (hno j)
    | error e => rfl
  · intro j eo hl heo
    have hse : sectorsOf (run ops) j = .ok eo.sectors := by unfold sectorsOf; rw [heo]
    rw [hl]
    simp only [bind, Except.bind, hse, hs, shape_items hsh, shape_tex hsh, hkeys]
    constructor
    · intro hu
      rw [if_pos hu]
    · intro hsub
      have hn : ¬ ∃ k ∈ Dict.keys s, k ∉ Dict.keys eo.sectors := by
        rintro ⟨k, hk, hk'⟩; exact hk' (hsub k hk)
      rw [if_neg hn]
      constructor
      · intro hd
        simp [hd]
      · intro hd
        constructor
        · intro ht; simp [hd, ht]
        · intro ht; simp [hd, ht, pure, Except.pure]

/-- The registered EFT is always an EFT object, so the cases of `C08_basis_validation` are exhaustive. -/
theorem C08_eft_object (ops : List Op) (h4 : ∀ op ∈ ops, op.onFour) (n : String) (j : Id)
    (hl : (run ops).lookup .eft [n] = .ok j) : ∃ eo, (run ops).objs[j]? = some (.eft eo) ∧ eo.eft = n := by
  obtain ⟨o, ho, hi⟩ := (good_run ops h4).lookup_ident hl
  cases o with
  | eft eo =>
    simp only [Obj.ident, Prod.mk.injEq, List.cons.injEq, and_true, true_and] at hi
    exact ⟨eo, ho, hi⟩
  | _ => simp [Obj.ident] at hi

/-- Concrete case of C08: the four outcomes. -/
example :
    let e : Op := .newEFT "WET" [("a", .null), ("b", .null)] []
    let c (n : String) : JVal := .obj [(n, .obj [("tex", .str "x")])]
    let yes : String → Except PyErr Bool := fun t => .ok (t == "$x$, $x$")
    validateBasis yes (run [e, .newBasis "WET" "B" [("a", c "C1"), ("b", c "C2")] []]) 1 = .ok () ∧
    validateBasis yes (run [e, .newBasis "WET" "B" [("a", c "C1")] []]) 1 =
      .error (.valueError "LaTeX compilation errors encountered") ∧
    validateBasis yes (run [e, .newBasis "WET" "B" [("a", c "C1"), ("b", c "C1")] []]) 1 =
      .error (.valueError "Duplicate coefficients in different sectors") ∧
    validateBasis yes (run [e, .newBasis "WET" "B" [("x", c "C1"), ("b", c "C1")] []]) 1 =
      .error (.valueError "Unknown sectors") ∧
    validateBasis yes (run [.newBasis "WET" "B" [("x", c "C1"), ("b", c "C1")] []]) 0 =
      .error (.valueError "EFT not defined") :=
  ⟨rfl, rfl, rfl, rfl, rfl⟩

/-! ### C09 -/

theorem iterNames_error {v : JVal} {e : PyErr} {why : String} (h : iterNames v = .error e) :
    e ≠ .valueError why := by
  cases v with
  | obj d => simp [iterNames] at h
  | str t => simp [iterNames] at h
  | list l =>
    unfold iterNames at h
    dsimp only at h
    induction l generalizing e with
    | nil => simp [List.mapM_nil, pure, Except.pure] at h
    | cons j l ihl =>
      rw [List.mapM_cons] at h
      cases j with
      | str t =>
        simp only [bind, Except.bind] at h
        split at h
        · rename_i e2 h2
          simp only [Except.error.injEq] at h
          subst h
          exact ihl h2
        · simp [pure, Except.pure] at h
      | _ => simp [bind, Except.bind] at h; rw [← h]; simp
  | _ => simp [iterNames] at h; rw [← h]; simp

/-- Reading a coefficient list never raises `ValueError`. -/
theorem C09_no_other_valueError (st : Store) (b : Id) (why : String) :
    (readAllWcs st b).2 ≠ .error (.valueError why) := by
  have hnames : ∀ s, namesOf s ≠ .error (.valueError why) := by
    intro s
    unfold namesOf
    have : ∀ e, s.mapM (fun p => iterNames p.2) = .error e → e ≠ .valueError why := by
      induction s with
      | nil => intro e h; simp [List.mapM_nil, pure, Except.pure] at h
      | cons p s ih =>
        intro e h
        rw [List.mapM_cons] at h
        cases hp : iterNames p.2 with
        | error e' =>
          rw [hp] at h
          simp only [bind, Except.bind, Except.error.injEq] at h
          subst h
          exact iterNames_error hp
        | ok x =>
          rw [hp] at h
          simp only [bind, Except.bind] at h
          cases hs : s.mapM (fun p => iterNames p.2) with
          | error e' =>
            rw [hs] at h
            simp only [Except.error.injEq] at h
            subst h
            exact ih e' hs
          | ok y => rw [hs] at h; simp [pure, Except.pure] at h
    cases hm : s.mapM (fun p => iterNames p.2) with
    | error e => intro h; simp only [bind, Except.bind, Except.error.injEq] at h; exact this e hm h
    | ok x => simp [bind, Except.bind, pure, Except.pure]
  unfold readAllWcs
  split
  · split
    · simp
    · simp
    · split
      · rename_i e hs
        simp only [ne_eq, Except.error.injEq]
        rintro rfl
        unfold sectorsOf at hs
        split at hs
        · split at hs <;> simp at hs
        · simp at hs
        · simp at hs
      · split
        · rename_i s hs e hn
          intro hh
          simp only [Except.error.injEq] at hh
          subst hh
          exact hnames _ hn
        · simp
  · simp

/-- **C09.** In every state: `WC.validate` raises `ValueError` exactly if the EFT or the basis is not
registered; when both are and the coefficient list of the basis can be read and the values are a
mapping, it succeeds exactly if every name belongs to the basis, and raises `AssertionError` exactly
if some name does not. -/
theorem C09_wc_validation (st : Store) (w : WC) :
    ((∃ why, validateWC st w = .error (.valueError why)) ↔
      (∀ i, st.lookup .eft [w.eft] ≠ .ok i) ∨ (∀ i, st.lookup .basis [w.eft, w.basis] ≠ .ok i)) ∧
    (validateWC st w = .ok () ↔
      ∃ i b d l, st.lookup .eft [w.eft] = .ok i ∧ st.lookup .basis [w.eft, w.basis] = .ok b ∧
        w.values = .obj d ∧ (readAllWcs st b).2 = .ok l ∧ ∀ k ∈ Dict.keys d, k ∈ l) ∧
    (∀ i b d l, st.lookup .eft [w.eft] = .ok i → st.lookup .basis [w.eft, w.basis] = .ok b →
        w.values = .obj d → (readAllWcs st b).2 = .ok l →
      (validateWC st w = .error .assertionError ↔ ∃ k ∈ Dict.keys d, k ∉ l)) := by
  unfold validateWC
  cases he : st.lookup .eft [w.eft] with
  | error e => simp [bind, Except.bind]
  | ok i =>
    cases hb : st.lookup .basis [w.eft, w.basis] with
    | error e => simp [bind, Except.bind]
    | ok b =>
      cases hv : w.values with
      | obj d =>
        have hno := C09_no_other_valueError st b
        cases hr : (readAllWcs st b).2 with
        | error e =>
          rw [hr] at hno
          simp only [ne_eq, Except.error.injEq] at hno
          simp only [bind, Except.bind, itemsOf, hr]
          refine ⟨by simp [hno], by simp [hr], ?_⟩
          rintro i' b' d' l' h1 h2 h3 h4
          cases h1; cases h2; cases h3
          rw [hr] at h4; cases h4
        | ok l =>
          simp only [bind, Except.bind, itemsOf, hr]
          by_cases hall : ∀ k ∈ Dict.keys d, k ∈ l
          · rw [if_pos hall]
            refine ⟨by simp [pure, Except.pure], by simp [pure, Except.pure, hr]; exact hall, ?_⟩
            rintro i' b' d' l' h1 h2 h3 h4
            cases h1; cases h2; cases h3
            rw [hr] at h4; cases h4
            simp only [pure, Except.pure, reduceCtorEq, false_iff, not_exists, not_and, not_not]
            exact hall
          · rw [if_neg hall]
            refine ⟨by simp, ?_, ?_⟩
            · simp only [reduceCtorEq, false_iff, not_exists, not_and]
              rintro i' b' d' l' h1 h2 h3 h4
              cases h1; cases h2; cases h3
              rw [hr] at h4; cases h4
              exact hall
            · rintro i' b' d' l' h1 h2 h3 h4
              cases h1; cases h2; cases h3
              rw [hr] at h4; cases h4
              push Not at hall
              simpa using hall
      | _ => simp [bind, Except.bind, itemsOf]

/-- Concrete case of C09. -/
example :
    let st := run goodOps
    validateWC st ⟨"WET", "JMS", 5, .obj [("C1", .num 1)], .none, []⟩ = .ok () ∧
    validateWC st ⟨"WET", "JMS", 5, .obj [("C1", .num 1), ("C2", .num 1)], .none, []⟩ =
      .error .assertionError ∧
    validateWC st ⟨"WET", "Bern", 5, .obj [("C1", .num 1)], .none, []⟩ =
      .error (.valueError "Basis not defined for EFT") ∧
    validateWC st ⟨"SMEFT", "JMS", 5, .obj [("C1", .num 1)], .none, []⟩ =
      .error (.valueError "EFT not defined") :=
  ⟨rfl, rfl, rfl, rfl⟩

/-! ### C10 -/

/-- **C10 is false.** A file whose only value is the word `banana` passes validation, but its numeric
dictionary cannot be read. -/
theorem C10_refuted (fl : String → Option ℝ) (hfl : fl "banana" = none) :
    let w : WC := ⟨"WET", "JMS", 5, .obj [("C1", .str "banana")], .none, []⟩
    validateWC (run goodOps) w = .ok () ∧
    w.dict fl = .error (.valueError "could not convert string to float") := by
  refine ⟨rfl, ?_⟩
  simp [WC.dict, WC.readDict, convertValues, itemsOf, bind, Except.bind, List.mapM_cons, toNumber, pyFloat, hfl]

/-- A value that the code can read as a number: a number, a truth value, a numeric string, or a mapping
whose `Re` and `Im` (if present) are such. -/
inductive Scalar (fl : String → Option ℝ) : JVal → Prop
  | num (x : ℝ) : Scalar fl (.num x)
  | bool (b : Bool) : Scalar fl (.bool b)
  | str (t : String) (x : ℝ) (h : fl t = some x) : Scalar fl (.str t)

/-- Numeric value in a file. -/
def Numeric (fl : String → Option ℝ) (v : JVal) : Prop :=
  Scalar fl v ∨ ∃ d, v = .obj d ∧ ∀ k j, (k = "Re" ∨ k = "Im") → Dict.find d k = some j → Scalar fl j

theorem pyFloat_ok_iff (fl : String → Option ℝ) (v : JVal) :
    (∃ x, pyFloat fl v = .ok x) ↔ Scalar fl v := by
  constructor
  · rintro ⟨x, hx⟩
    cases v with
    | num y => exact .num y
    | bool b => exact .bool b
    | str t =>
      unfold pyFloat at hx
      cases ht : fl t with
      | none => simp [ht] at hx
      | some y => exact .str t y ht
    | _ => simp [pyFloat] at hx
  · intro h
    cases h with
    | num y => exact ⟨y, rfl⟩
    | bool b => exact ⟨_, rfl⟩
    | str t y h => exact ⟨y, by simp [pyFloat, h]⟩

theorem toNumber_ok_iff (fl : String → Option ℝ) (v : JVal) :
    (∃ x, toNumber fl v = .ok x) ↔ Numeric fl v := by
  have hsc : ∀ v, (∀ d, v ≠ JVal.obj d) → ((∃ x, toNumber fl v = .ok x) ↔ Numeric fl v) := by
    intro v hv
    have h1 : toNumber fl v = (pyFloat fl v >>= fun x => pure (x : ℂ)) := by
      cases v <;> first | rfl | exact absurd rfl (hv _)
    rw [h1]
    have h2 : Numeric fl v ↔ Scalar fl v := by
      constructor
      · rintro (h | ⟨d, hd, _⟩)
        · exact h
        · exact absurd hd (hv d)
      · exact Or.inl
    rw [h2, ← pyFloat_ok_iff]
    cases pyFloat fl v <;> simp [bind, Except.bind, pure, Except.pure]
  by_cases hv : ∀ d, v ≠ JVal.obj d
  · exact hsc v hv
  · push Not at hv
    obtain ⟨d, rfl⟩ := hv
    have hd : ∀ k, (∃ x, pyFloat fl (Dict.getD d k (.num 0)) = .ok x) ↔
        ∀ j, Dict.find d k = some j → Scalar fl j := by
      intro k
      unfold Dict.getD
      cases hk : Dict.find d k with
      | none => simp [pyFloat]
      | some j => simp [pyFloat_ok_iff]
    have h3 : Numeric fl (.obj d) ↔ (∀ j, Dict.find d "Re" = some j → Scalar fl j) ∧
        (∀ j, Dict.find d "Im" = some j → Scalar fl j) := by
      constructor
      · rintro (h | ⟨d', hd', h⟩)
        · cases h
        · cases hd'
          exact ⟨fun j => h "Re" j (Or.inl rfl), fun j => h "Im" j (Or.inr rfl)⟩
      · rintro ⟨h1, h2⟩
        refine Or.inr ⟨d, rfl, ?_⟩
        rintro k j (rfl | rfl) hj
        · exact h1 j hj
        · exact h2 j hj
    rw [h3, ← hd, ← hd]
    unfold toNumber
    simp only [bind, Except.bind, pure, Except.pure]
    cases pyFloat fl (Dict.getD d "Re" (JVal.num 0)) <;>
      cases pyFloat fl (Dict.getD d "Im" (JVal.num 0)) <;> simp

/-- **C10, the part that holds.** The numeric dictionary of a freshly loaded object can be read exactly
if its values are a mapping to numeric values. Missing from C10: validation does not check this. -/
theorem C10_partial (fl : String → Option ℝ) (w : WC) (hw : w.cache = .none) :
    (∃ d, w.dict fl = .ok d) ↔ ∃ vs, w.values = .obj vs ∧ ∀ p ∈ vs, Numeric fl p.2 := by
  rw [WC.dict_of_noCache hw]
  cases hv : w.values with
  | obj vs =>
    rw [convertValues_obj_ok_iff]
    simp only [JVal.obj.injEq, exists_eq_left', toNumber_ok_iff]
  | _ => simp [convertValues, itemsOf, bind, Except.bind]

/-- Concrete case of C10: real, complex and textual numbers. -/
example (fl : String → Option ℝ) (h : fl "1e-3" = some 0.001) :
    ∃ d, (⟨"WET", "JMS", 5, .obj [("a", .num 1), ("b", .obj [("Im", .num 2)]), ("c", .str "1e-3")],
      .none, []⟩ : WC).dict fl = .ok d := by
  rw [C10_partial _ _ rfl]
  refine ⟨_, rfl, ?_⟩
  intro p hp
  simp only [List.mem_cons, List.not_mem_nil, or_false] at hp
  rcases hp with rfl | rfl | rfl
  · exact Or.inl (.num _)
  · refine Or.inr ⟨_, rfl, ?_⟩
    rintro k j (rfl | rfl) hj
    · simp [Dict.find] at hj
    · simp [Dict.find] at hj; subst hj; exact .num _
  · exact Or.inl (.str _ _ h)

end Verif
