import Verif.Lemmas.Markdown
import Verif.Model.History

/-!
C78, C79: the text forms of bases and of coefficient objects.
-/

set_option autoImplicit false

namespace Verif

open Spec

/-- The description of a basis, as `metadata` of a basis file must have it. -/
def Described (extra : Dict String JVal) (desc : Option String) : Prop :=
  (Dict.find extra "metadata" = none ∧ desc = none) ∨
  ∃ m, Dict.find extra "metadata" = some (.obj m) ∧
    ((Dict.find m "description" = none ∧ desc = none) ∨
      ∃ t, Dict.find m "description" = some (.str t) ∧ desc = some t)

/-- The text of the description. -/
def descText : Option String → String
  | none => ""
  | some t => t ++ "\n\n"

/-- The lines of the description. -/
def descLines : Option String → List (List Char)
  | none => []
  | some t => mdLines t ++ [[]]

theorem mdBasis_described {o : BasisObj} {desc : Option String} (h : Described o.extra desc) :
    mdBasis o = .ok ("# Basis `" ++ o.basis ++ "` (EFT `" ++ o.eft ++ "`)\n\n" ++ descText desc) := by
  unfold mdBasis
  rcases h with ⟨h, rfl⟩ | ⟨m, h, ⟨h2, rfl⟩ | ⟨t, h2, rfl⟩⟩
  · rw [h]; simp [descText]
  · rw [h]
    simp [inData, Dict.has, h2, bind, Except.bind, pure, Except.pure, descText]
  · rw [h]
    simp [inData, Dict.has, h2, bind, Except.bind, pure, Except.pure, itemOf, Dict.get, addBreak, descText]

/-- The file data of an entry. -/
def entryData : Option (Dict String JVal) → JVal
  | none => .null
  | some d => .obj d

theorem mdRow_ok (sh : JVal → String) (n : String) (d : Dict String JVal)
    (ht : ∀ j, Dict.find d "tex" = some j → ∃ t, j = .str t)
    (hr : ∀ j, Dict.find d "real" = some j → ∃ b, j = .bool b) :
    mdRow sh (n, .obj d) = .ok (String.ofList (rowLine (n, texString d, declaredReal d)) ++ "\n") := by
  have hty : mdType (.obj d) = .ok (if declaredReal d then "R" else "C") := by
    unfold mdType declaredReal
    cases h : Dict.find d "real" with
    | none => simp [inData, Dict.has, h, bind, Except.bind, pure, Except.pure]
    | some j =>
      obtain ⟨b, rfl⟩ := hr j h
      simp [inData, Dict.has, h, bind, Except.bind, pure, Except.pure, itemOf, Dict.get, mdTruthy]
      cases b <;> rfl
  have hx : fmtData sh (Dict.getD d "tex" (.str "")) = texString d := by
    unfold texString Dict.getD
    cases h : Dict.find d "tex" with
    | none => rfl
    | some j =>
      obtain ⟨t, rfl⟩ := ht j h
      rfl
  unfold mdRow
  simp only [hty, bind, Except.bind, getOrEmpty, hx, pure, Except.pure]
  congr 1
  apply String.toList_inj.1
  unfold rowLine
  cases declaredReal d <;> simp

theorem mdRow_null (sh : JVal → String) (n : String) : mdRow sh (n, .null) = .error .typeError := rfl

theorem mdTruthy_obj (d : Dict String JVal) : mdTruthy (.obj d) = !d.isEmpty := rfl

/-- A list of computations of which each succeeds or raises `e`, and one raises. -/
theorem mapM_error {α β : Type} (f : α → Except PyErr β) (e : PyErr) (l : List α)
    (h : ∀ a ∈ l, (∃ b, f a = .ok b) ∨ f a = .error e) (h2 : ∃ a ∈ l, f a = .error e) : l.mapM f = .error e := by
  induction l with
  | nil => obtain ⟨a, ha, _⟩ := h2; cases ha
  | cons a l ih =>
    rw [List.mapM_cons]
    rcases h a List.mem_cons_self with ⟨b, hb⟩ | hb
    · obtain ⟨c, hc, hce⟩ := h2
      rcases List.mem_cons.1 hc with rfl | hc
      · rw [hb] at hce; cases hce
      · rw [hb, ih (fun a ha => h a (List.mem_cons_of_mem _ ha)) ⟨c, hc, hce⟩]
        rfl
    · rw [hb]; rfl

/-- The rows that the text should have. -/
def rowsOf (l : List (String × Option (Dict String JVal))) : List (String × String × Bool) :=
  l.map fun q => (q.1, texString (q.2.getD []), declaredReal (q.2.getD []))

theorem mdSector_ok (sh : JVal → String) (n : String) (l : List (String × Option (Dict String JVal)))
    (hn : ∀ q ∈ l, q.2 ≠ none)
    (ht : ∀ q ∈ l, ∀ d, q.2 = some d → ∀ j, Dict.find d "tex" = some j → ∃ t, j = .str t)
    (hr : ∀ q ∈ l, ∀ d, q.2 = some d → ∀ j, Dict.find d "real" = some j → ∃ b, j = .bool b) :
    mdSector sh (n, .obj (l.map fun q => (q.1, match q.2 with
      | none => .null
      | some d => .obj d))) = .ok (String.ofList ((sectorLines (n, rowsOf l)).flatMap (· ++ ['\n']))) := by
  have hrows : (l.map fun q => (q.1, match q.2 with
      | none => JVal.null
      | some d => .obj d)).mapM (mdRow sh) =
      .ok ((rowsOf l).map fun q => String.ofList (rowLine q) ++ "\n") := by
    unfold rowsOf
    rw [List.map_map]
    apply mapM_ok_map
    intro q hq
    obtain ⟨k, od⟩ := q
    cases od with
    | none => exact absurd rfl (hn _ hq)
    | some d => exact mdRow_ok sh k d (ht _ hq d rfl) (hr _ hq d rfl)
  unfold mdSector
  dsimp only
  rw [mdTruthy_obj]
  by_cases he : l = []
  · subst he
    simp only [List.map_nil, List.isEmpty_nil, Bool.not_true, Bool.false_eq_true, if_false, pure, Except.pure]
    congr 1
    apply String.toList_inj.1
    simp [sectorLines, rowsOf]
  · have h1 : ((l.map fun q => (q.1, match q.2 with
      | none => JVal.null
      | some d => .obj d)).isEmpty) = false := by
      cases l with
      | nil => exact absurd rfl he
      | cons a l => rfl
    rw [h1]
    simp only [Bool.not_false, if_true, itemsOf, bind, Except.bind, hrows, pure, Except.pure]
    congr 1
    apply String.toList_inj.1
    have hne : rowsOf l ≠ [] := by simpa [rowsOf] using he
    have hj : ∀ m : List (String × String × Bool),
        (String.join (m.map fun q => String.ofList (rowLine q) ++ "\n")).toList =
        (m.map rowLine).flatMap (· ++ ['\n']) := by
      intro m
      induction m with
      | nil => rfl
      | cons q m ih => simp [ih]
    simp [sectorLines, hne, hj]

/-- The text of a sector without `null` entries succeeds, with one it raises `TypeError`. -/
theorem mdSector_null (sh : JVal → String) (n : String) (l : List (String × Option (Dict String JVal)))
    (hn : ∃ q ∈ l, q.2 = none)
    (ht : ∀ q ∈ l, ∀ d, q.2 = some d → ∀ j, Dict.find d "tex" = some j → ∃ t, j = .str t)
    (hr : ∀ q ∈ l, ∀ d, q.2 = some d → ∀ j, Dict.find d "real" = some j → ∃ b, j = .bool b) :
    mdSector sh (n, .obj (l.map fun q => (q.1, match q.2 with
      | none => .null
      | some d => .obj d))) = .error .typeError := by
  have hrows : (l.map fun q => (q.1, match q.2 with
      | none => JVal.null
      | some d => .obj d)).mapM (mdRow sh) = .error .typeError := by
    apply mapM_error
    · intro a ha
      obtain ⟨q, hq, rfl⟩ := List.mem_map.1 ha
      obtain ⟨k, od⟩ := q
      cases od with
      | none => exact Or.inr rfl
      | some d => exact Or.inl ⟨_, mdRow_ok sh k d (ht _ hq d rfl) (hr _ hq d rfl)⟩
    · obtain ⟨q, hq, hq2⟩ := hn
      exact ⟨_, List.mem_map.2 ⟨q, hq, rfl⟩, by rw [hq2]; rfl⟩
  unfold mdSector
  dsimp only
  rw [mdTruthy_obj]
  obtain ⟨q, hq, _⟩ := hn
  have h1 : ((l.map fun q => (q.1, match q.2 with
    | none => JVal.null
    | some d => .obj d)).isEmpty) = false := by
    cases l with
    | nil => cases hq
    | cons a l => rfl
  rw [h1]
  simp only [Bool.not_false, if_true, itemsOf, bind, Except.bind, hrows]

theorem whole_intro : ∃ ls, Whole mdIntro ("## Sectors".toList :: ls) ∧
    ∀ rest, sections ("## Sectors".toList :: (ls ++ rest)) = sections rest := by
  refine ⟨[[], "The effective Lagrangian is defined as".toList,
    ("$$\\mathcal L_\\text{eff} = -\\mathcal H_\\text{eff} =" ++
     "\\sum_{O_i= O_i^\\dagger} C_i \\, O_i + \\sum_{O_i\\neq O_i^\\dagger}" ++
     "\\left( C_i \\, O_i + C^*_i \\, O^\\dagger_i\\right).$$").toList, []], ?_, ?_⟩
  · apply Whole.of_toList
    · decide +kernel
    · decide +kernel
  · intro rest
    rw [sections_cons_other (by decide) (by decide), List.cons_append,
      sections_cons_other (by decide) (by decide), List.cons_append,
      sections_cons_other (by decide) (by decide), List.cons_append,
      sections_cons_other (by decide +kernel) (by decide +kernel), List.cons_append,
      sections_cons_other (by decide) (by decide), List.nil_append]

theorem dropWhile_ne {α : Type} [DecidableEq α] (x : α) (l : List α) (h : x ∉ l) (r : List α) :
    (l ++ x :: r).dropWhile (· ≠ x) = x :: r := by
  rw [List.dropWhile_append_of_pos]
  · simp
  · intro a ha
    simp only [ne_eq, decide_not, Bool.not_eq_eq_eq_not, Bool.not_true, decide_eq_false_iff_not]
    rintro rfl
    exact h ha

/-- The line of the title. -/
def titleLine (o : BasisObj) : List Char := ("# Basis `" ++ o.basis ++ "` (EFT `" ++ o.eft ++ "`)").toList

/-- **C78, part.** Let the data of a basis have the shape of a basis file (`real` flags are booleans), with
names in one line and without backticks, LaTeX code in one line, and no line `## Sectors` in the
description. If every coefficient has data, `str(basis)` succeeds; its text begins with a title naming
basis and EFT, followed by the description, and reading its tables gives exactly the sectors in
order, each with its coefficients in order, their LaTeX code and type (`R` for those declared real). The
names read are those of a fresh `all_wcs`. If a coefficient has no data (`null`, which `validate` accepts),
`str(basis)` raises `TypeError`. -/
theorem C78_text_partial (sh : JVal → String) (st : Store) (i : Id) (o : BasisObj) (s : Sectors)
    (sec : List (String × List (String × Option (Dict String JVal)))) (desc : Option String)
    (ho : st.objs[i]? = some (.basis o)) (hs : sectorsOf st i = .ok s) (hsh : Shape s sec)
    (hb : OneLine o.basis) (he : OneLine o.eft) (hd : Described o.extra desc)
    (hdl : ∀ t, desc = some t → "## Sectors".toList ∉ mdLines t)
    (hn : ∀ p ∈ sec, OneLine p.1 ∧ ∀ q ∈ p.2, Quotable q.1)
    (hx : ∀ p ∈ sec, ∀ q ∈ p.2, ∀ d, q.2 = some d → OneLine (texString d))
    (hr : ∀ p ∈ sec, ∀ q ∈ p.2, ∀ d, q.2 = some d → ∀ j, Dict.find d "real" = some j → ∃ b, j = .bool b) :
    ((∀ p ∈ sec, ∀ q ∈ p.2, q.2 ≠ none) → ∃ t, strBasis sh st i = .ok t ∧
      [titleLine o, []] ++ descLines desc <+: mdLines t ∧
      basisText t = (sec.map fun p => (p.1, p.2.map fun q =>
        (q.1, texString (q.2.getD []), declaredReal (q.2.getD [])))) ∧
      (o.allWcs = some none →
        (readAllWcs st i).2 = .ok ((basisText t).flatMap fun p => p.2.map Prod.fst))) ∧
    ((∃ p ∈ sec, ∃ q ∈ p.2, q.2 = none) → strBasis sh st i = .error .typeError) := by
  have hstr : strBasis sh st i = (do
      let md ← mdBasis o
      let s ← sectorsOf st i
      let t ← mdTables sh s
      return md ++ t) := by
    unfold strBasis; rw [ho]
  have hstr' : strBasis sh st i = match mdTables sh s with
      | .error e => .error e
      | .ok t => .ok (("# Basis `" ++ o.basis ++ "` (EFT `" ++ o.eft ++ "`)\n\n" ++ descText desc) ++ t) := by
    rw [hstr, mdBasis_described hd, hs]
    simp only [bind, Except.bind, pure, Except.pure]
    cases mdTables sh s <;> rfl
  rw [hstr']
  constructor
  · intro hnull
    have hm : s.mapM (mdSector sh) = .ok (sec.map fun p =>
        String.ofList ((sectorLines (p.1, rowsOf p.2)).flatMap (· ++ ['\n']))) := by
      rw [hsh.data]
      apply mapM_ok_map
      intro p hp
      exact mdSector_ok sh p.1 p.2 (hnull p hp) (hsh.tex p hp) (hr p hp)
    obtain ⟨ls, hw, hsec⟩ := whole_intro
    -- the lines of the title and description
    have htitle : Whole ("# Basis `" ++ o.basis ++ "` (EFT `" ++ o.eft ++ "`)\n\n") [titleLine o, []] := by
      apply Whole.of_toList
      · simp [titleLine]
      · unfold OneLine at hb he
        simp [titleLine, hb, he]
    have hdesc : Whole (descText desc) (descLines desc) := by
      cases desc with
      | none => exact Whole.nil
      | some t =>
        intro u
        unfold descText descLines mdLines
        have : (t ++ "\n\n" ++ u).toList = t.toList ++ '\n' :: ([] ++ '\n' :: u.toList) := by simp
        dsimp only
        rw [this, List.splitOn_append_cons_self, List.splitOn_append_cons_self]
        simp
    have hsectors : Whole (String.join (sec.map fun p =>
        String.ofList ((sectorLines (p.1, rowsOf p.2)).flatMap (· ++ ['\n']))))
        (sec.flatMap fun p => sectorLines (p.1, rowsOf p.2)) := by
      apply Whole.join
      intro p hp
      apply Whole.of_toList
      · simp
      · have hsep : '\n' ∉ ("|" ++ String.ofList (List.replicate 18 '-') ++ "|" ++
            String.ofList (List.replicate 48 '-') ++ "|" ++ String.ofList (List.replicate 6 '-') ++ "|").toList := by
          decide +kernel
        intro l hl
        unfold sectorLines at hl
        rcases List.mem_append.1 hl with hl | hl
        · have h1 := (hn p hp).1
          unfold OneLine at h1
          simp only [List.mem_cons, List.not_mem_nil, or_false] at hl
          rcases hl with rfl | rfl
          · simp [h1]
          · simp
        · split at hl
          · cases hl
          · rcases List.mem_append.1 hl with hl | hl
            · simp only [List.mem_cons, List.not_mem_nil, or_false] at hl
              rcases hl with rfl | rfl
              · decide +kernel
              · exact hsep
            · obtain ⟨r, hr', rfl⟩ := List.mem_map.1 hl
              obtain ⟨q, hq, rfl⟩ := List.mem_map.1 hr'
              have h1 := ((hn p hp).2 q hq).1
              have h2 : OneLine (texString (q.2.getD [])) := by
                cases hq2 : q.2 with
                | none => exact absurd hq2 (hnull p hp q hq)
                | some d => exact hx p hp q hq d hq2
              unfold OneLine at h1 h2
              unfold rowLine
              dsimp only
              cases declaredReal (q.2.getD []) <;> simp [h1, h2]
    have ht : mdTables sh s = .ok (mdIntro ++ String.join (sec.map fun p =>
        String.ofList ((sectorLines (p.1, rowsOf p.2)).flatMap (· ++ ['\n'])))) := by
      unfold mdTables
      rw [hm]
      rfl
    rw [ht]
    refine ⟨_, rfl, ?_⟩
    have hall := ((htitle.append hdesc).append (hw.append hsectors)).lines
    rw [hall]
    have hfront : "## Sectors".toList ∉ [titleLine o, []] ++ descLines desc := by
      intro hmem
      rcases List.mem_append.1 hmem with hmem | hmem
      · simp only [List.mem_cons, List.not_mem_nil, or_false] at hmem
        rcases hmem with hmem | hmem
        · have h2 := congrArg (fun l => l[1]?) hmem
          simp [titleLine] at h2
        · exact absurd hmem (by decide)
      · cases desc with
        | none => cases hmem
        | some t =>
          rcases List.mem_append.1 hmem with hmem | hmem
          · exact hdl t rfl hmem
          · simp at hmem
    refine ⟨?_, ?_⟩
    · rw [List.append_assoc (_ ++ _)]
      exact List.prefix_append _ _
    have htext : ∀ t, mdLines t = [titleLine o, []] ++ descLines desc ++ ("## Sectors".toList :: ls ++
        sec.flatMap fun p => sectorLines (p.1, rowsOf p.2)) ++ [[]] → basisText t = sec.map fun p => (p.1, rowsOf p.2) := by
      intro t ht
      unfold basisText
      have e : mdLines t = ([titleLine o, []] ++ descLines desc) ++ "## Sectors".toList :: (ls ++
          ((sec.flatMap fun p => sectorLines (p.1, rowsOf p.2)) ++ [[]])) := by
        rw [ht]
        generalize "## Sectors".toList = x
        simp only [List.append_assoc, List.cons_append, List.nil_append]
      rw [e, dropWhile_ne _ _ hfront, hsec]
      have h3 := sections_all (sec.map fun p => (p.1, rowsOf p.2)) (by
        intro p' hp' q' hq'
        obtain ⟨p, hp, rfl⟩ := List.mem_map.1 hp'
        obtain ⟨q, hq, rfl⟩ := List.mem_map.1 hq'
        exact ((hn p hp).2 q hq).2)
      rw [List.flatMap_map] at h3
      rw [h3]
    rw [htext _ hall]
    refine ⟨rfl, ?_⟩
    intro hc
    unfold readAllWcs
    rw [ho]
    dsimp only
    rw [hc]
    dsimp only
    rw [hs]
    dsimp only
    have hnm : namesOf s = .ok ((sec.map fun p => (p.1, rowsOf p.2)).flatMap fun p => p.2.map Prod.fst) := by
      unfold namesOf
      rw [hsh.data, mapM_ok_map (fun p : String × JVal => iterNames p.2) _ (fun p => p.2.map Prod.fst)]
      · simp [bind, Except.bind, pure, Except.pure, rowsOf, List.flatMap_def, List.map_map, Function.comp_def]
      · intro p hp
        simp [iterNames, Dict.keys, List.map_map, Function.comp_def]
    rw [hnm]
  · rintro ⟨p, hp, q, hq, hq2⟩
    have hm : s.mapM (mdSector sh) = .error .typeError := by
      rw [hsh.data]
      apply mapM_error
      · intro a ha
        obtain ⟨p, hp, rfl⟩ := List.mem_map.1 ha
        by_cases hnul : ∃ q ∈ p.2, q.2 = none
        · exact Or.inr (mdSector_null sh p.1 p.2 hnul (hsh.tex p hp) (hr p hp))
        · push Not at hnul
          exact Or.inl ⟨_, mdSector_ok sh p.1 p.2 hnul (hsh.tex p hp) (hr p hp)⟩
      · exact ⟨_, List.mem_map.2 ⟨p, hp, rfl⟩, mdSector_null sh p.1 p.2 ⟨q, hq, hq2⟩ (hsh.tex p hp) (hr p hp)⟩
    have ht : mdTables sh s = .error .typeError := by
      unfold mdTables
      rw [hm]
      rfl
    rw [ht]

/-- **C78 is false as stated.** A basis with a coefficient without data (`null`) passes `validate`, but its
text form raises `TypeError`. -/
theorem C78_text_refuted : ∃ (st : Store) (i : Id), (∀ tex, tex "$x$" = .ok true → validateBasis tex st i = .ok ()) ∧
    ∀ sh, strBasis sh st i = .error .typeError :=
  ⟨run [.newEFT "WET" [("a", .null)] [],
      .newBasis "WET" "B" [("a", .obj [("C1", .obj [("tex", .str "x")]), ("C2", .null)])] []], 1,
    by
      intro tex h
      have e : validateBasis tex (run [.newEFT "WET" [("a", .null)] [],
        .newBasis "WET" "B" [("a", .obj [("C1", .obj [("tex", .str "x")]), ("C2", .null)])] []]) 1 =
          (do
            let ok ← tex "$x$"
            if ok then pure () else .error (.valueError "LaTeX compilation errors encountered")) := rfl
      rw [e, h]
      rfl, fun _ => rfl⟩

/-- Concrete case of C78: two sectors, one empty, with a description. -/
example (sh : JVal → String) :
    let st := run [.newBasis "WET" "B" [("a", .obj [("C1", .obj [("tex", .str "x"), ("real", .bool true)]), ("C2", .obj [])]),
      ("b", .obj [])] [("metadata", .obj [("description", .str "text")])]]
    ∃ t, strBasis sh st 0 = .ok t ∧ basisText t = [("a", [("C1", "x", true), ("C2", "", false)]), ("b", [])] := by
  have h := (C78_text_partial sh (run [.newBasis "WET" "B" [("a", .obj [("C1", .obj [("tex", .str "x"), ("real", .bool true)]), ("C2", .obj [])]),
      ("b", .obj [])] [("metadata", .obj [("description", .str "text")])]]) 0
    ⟨"WET", "B", [("metadata", .obj [("description", .str "text")])], some 0, some none⟩
    [("a", .obj [("C1", .obj [("tex", .str "x"), ("real", .bool true)]), ("C2", .obj [])]), ("b", .obj [])]
    [("a", [("C1", some [("tex", .str "x"), ("real", .bool true)]), ("C2", some [])]), ("b", [])] (some "text") rfl rfl
    ⟨rfl, by
      intro p hp q hq d hd j hj
      simp only [List.mem_cons, List.not_mem_nil, or_false] at hp
      rcases hp with rfl | rfl
      · simp only [List.mem_cons, List.not_mem_nil, or_false] at hq
        rcases hq with rfl | rfl
        · cases hd; cases hj; exact ⟨_, rfl⟩
        · cases hd; cases hj
      · cases hq⟩
    (by unfold OneLine; decide) (by unfold OneLine; decide)
    (Or.inr ⟨_, rfl, Or.inr ⟨_, rfl, rfl⟩⟩) (by intro t ht; cases ht; decide)
    (by
      intro p hp
      simp only [List.mem_cons, List.not_mem_nil, or_false] at hp
      unfold Quotable OneLine
      rcases hp with rfl | rfl
      · refine ⟨by decide, fun q hq => ?_⟩
        simp only [List.mem_cons, List.not_mem_nil, or_false] at hq
        rcases hq with rfl | rfl <;> decide
      · exact ⟨by decide, fun q hq => by cases hq⟩)
    (by
      intro p hp q hq d hd
      unfold OneLine
      simp only [List.mem_cons, List.not_mem_nil, or_false] at hp
      rcases hp with rfl | rfl
      · simp only [List.mem_cons, List.not_mem_nil, or_false] at hq
        rcases hq with rfl | rfl <;> cases hd <;> decide
      · cases hq)
    (by
      intro p hp q hq d hd j hj
      simp only [List.mem_cons, List.not_mem_nil, or_false] at hp
      rcases hp with rfl | rfl
      · simp only [List.mem_cons, List.not_mem_nil, or_false] at hq
        rcases hq with rfl | rfl
        · cases hd; cases hj; exact ⟨_, rfl⟩
        · cases hd; cases hj
      · cases hq)).1 (by
      intro p hp q hq
      simp only [List.mem_cons, List.not_mem_nil, or_false] at hp
      rcases hp with rfl | rfl
      · simp only [List.mem_cons, List.not_mem_nil, or_false] at hq
        rcases hq with rfl | rfl <;> simp
      · cases hq)
  obtain ⟨t, h1, _, h2, _⟩ := h
  exact ⟨t, h1, h2⟩

theorem until_quote {a a' x x' : List Char} {c : Char} (h : c ∉ a) (h' : c ∉ a') (e : a ++ c :: x = a' ++ c :: x') :
    a = a' ∧ x = x' := by
  induction a generalizing a' with
  | nil =>
    cases a' with
    | nil => exact ⟨rfl, (List.cons.inj e).2⟩
    | cons b a' => exact absurd ((List.cons.inj e).1 ▸ List.mem_cons_self) h'
  | cons b a ih =>
    cases a' with
    | nil => exact absurd ((List.cons.inj e).1 ▸ List.mem_cons_self) h
    | cons b' a' =>
      obtain ⟨e1, e2⟩ := List.cons.inj e
      obtain ⟨e3, e4⟩ := ih (fun hc => h (List.mem_cons_of_mem _ hc)) (fun hc => h' (List.mem_cons_of_mem _ hc)) e2
      exact ⟨by rw [e1, e3], e4⟩

/-- **C78, short form.** `repr` tells bases of different EFT or name apart (EFT names without quotes). -/
theorem C78_repr (o o' : BasisObj) (h : '\'' ∉ o.eft.toList) (h' : '\'' ∉ o'.eft.toList)
    (e : reprBasis o = reprBasis o') : o.eft = o'.eft ∧ o.basis = o'.basis := by
  have e := congrArg String.toList e
  unfold reprBasis at e
  simp only [String.toList_append, List.append_assoc, List.append_cancel_left_eq] at e
  have e0 : "', '".toList = '\'' :: ", '".toList := by decide
  rw [e0, List.cons_append, List.cons_append] at e
  obtain ⟨h1, h2⟩ := until_quote h h' e
  rw [List.append_cancel_left_eq, List.append_left_inj] at h2
  exact ⟨String.toList_inj.1 h1, String.toList_inj.1 h2⟩

/-! ### C79 -/

theorem field_first {pre post : String} {t : String} {m : List Char} {front rest : List (List Char)}
    (h : mdLines t = front ++ (pre.toList ++ (m ++ post.toList)) :: rest)
    (hf : ∀ l ∈ front, between pre post l = none) : field pre post t = some (String.ofList m) := by
  unfold field
  rw [h, List.filterMap_append, List.filterMap_eq_nil_iff.2, List.nil_append, List.filterMap_cons, between_self]
  · rfl
  · intro l hl
    rw [hf l hl]
    rfl

/-- The lines before the first row. -/
def headLines (n : NumText) (w : WC) : List (List Char) :=
  ["## WCxf Wilson coefficients".toList, [], "**EFT:** `".toList ++ (w.eft.toList ++ "`".toList), [],
   "**Basis:** `".toList ++ (w.basis.toList ++ "`".toList), [],
   "**Scale:** ".toList ++ ((n.scale w.scale).toList ++ " GeV".toList), [],
   "### Values".toList, [], "| WC name | Value |".toList,
   ("|" ++ String.ofList (List.replicate 20 '-') ++ "|" ++ String.ofList (List.replicate 52 '-') ++ "|").toList]

/-- A row of the table of values as a line. -/
def valueLine (n : NumText) (p : String × ℂ) : List Char :=
  "| `".toList ++ (p.1.toList ++ ("` | ".toList ++ ((n.value p.1 p.2).toList ++ " |".toList)))

theorem mid2_toList : "` | ".toList = '`' :: " | ".toList := by decide

/-- **C79.** Let the names of EFT, basis and coefficients and the written numbers be in one line, the
coefficient names without backticks. `str(wc)` raises exactly what reading `wc.dict` raises. Otherwise its
text names the EFT, the basis and the scale, and the rows of its table are exactly the entries of
`wc.dict` in order. Printing has the same effect on the object as reading `wc.dict`. -/
theorem C79_text (fl : String → Option ℝ) (n : NumText) (w : WC) :
    (∀ e, w.dict fl = .error e → (strWC fl n w).1 = .error e) ∧
    (strWC fl n w).2 = (w.readDict fl).2 ∧
    ∀ d, w.dict fl = .ok d → OneLine w.eft → OneLine w.basis → OneLine (n.scale w.scale) →
      (∀ p ∈ d, Quotable p.1 ∧ OneLine (n.value p.1 p.2)) →
      ∃ t, (strWC fl n w).1 = .ok t ∧
        field "**EFT:** `" "`" t = some w.eft ∧ field "**Basis:** `" "`" t = some w.basis ∧
        field "**Scale:** " " GeV" t = some (n.scale w.scale) ∧
        valueRows t = d.map fun p => (p.1, n.value p.1 p.2) := by
  refine ⟨?_, ?_, ?_⟩
  · intro e h
    unfold WC.dict at h
    unfold strWC
    split <;> rename_i e' w' h' <;> rw [h'] at h <;> simp_all
  · unfold strWC
    split <;> rename_i h' <;> rw [h']
  · intro d h heft hbasis hscale hrow
    have hd : (strWC fl n w).1 = .ok (mdHead n w ++ String.join (d.map (mdValue n))) := by
      unfold WC.dict at h
      unfold strWC
      split <;> rename_i e' w' h' <;> rw [h'] at h <;> simp_all
    unfold OneLine at heft hbasis hscale
    have hhead : Whole (mdHead n w) (headLines n w) := by
      apply Whole.of_toList
      · have h1 : ∀ a b : String, (a ++ b).toList = a.toList ++ b.toList := fun _ _ => String.toList_append
        unfold mdHead headLines
        simp
      · intro l hl
        unfold headLines at hl
        simp only [List.mem_cons, List.not_mem_nil, or_false] at hl
        rcases hl with rfl | rfl | rfl | rfl | rfl | rfl | rfl | rfl | rfl | rfl | rfl | rfl
        · decide
        · decide
        · simp [heft]
        · decide
        · simp [hbasis]
        · decide
        · simp [hscale]
        · decide
        · decide
        · decide
        · decide
        · decide +kernel
    have hrows : Whole (String.join (d.map (mdValue n))) (d.flatMap fun p => [valueLine n p]) := by
      apply Whole.join
      intro p hp
      obtain ⟨⟨h1, h2⟩, h3⟩ := hrow p hp
      unfold OneLine at h1 h3
      apply Whole.of_toList
      · simp [mdValue, valueLine]
      · simp [valueLine, h1, h3]
    have hall := (hhead.append hrows).lines
    refine ⟨_, hd, ?_, ?_, ?_, ?_⟩
    · rw [field_first (m := w.eft.toList) (front := (headLines n w).take 2)
        (rest := (headLines n w).drop 3 ++ (d.flatMap fun p => [valueLine n p]) ++ [[]]) hall]
      · simp
      · intro l hl
        simp only [headLines, List.take_succ_cons, List.take_zero, List.mem_cons, List.not_mem_nil, or_false] at hl
        rcases hl with rfl | rfl <;> exact between_prefix (by decide)
    · rw [field_first (m := w.basis.toList) (front := (headLines n w).take 4)
        (rest := (headLines n w).drop 5 ++ (d.flatMap fun p => [valueLine n p]) ++ [[]]) hall]
      · simp
      · intro l hl
        simp only [headLines, List.take_succ_cons, List.take_zero, List.mem_cons, List.not_mem_nil, or_false] at hl
        rcases hl with rfl | rfl | rfl | rfl
        · exact between_prefix (by decide)
        · exact between_prefix (by decide)
        · apply between_prefix
          rintro ⟨r, hr⟩
          exact absurd (congrArg (fun l => l[2]?) hr) (by simp)
        · exact between_prefix (by decide)
    · rw [field_first (m := (n.scale w.scale).toList) (front := (headLines n w).take 6)
        (rest := (headLines n w).drop 7 ++ (d.flatMap fun p => [valueLine n p]) ++ [[]]) hall]
      · simp
      · intro l hl
        simp only [headLines, List.take_succ_cons, List.take_zero, List.mem_cons, List.not_mem_nil, or_false] at hl
        rcases hl with rfl | rfl | rfl | rfl | rfl | rfl
        · exact between_prefix (by decide)
        · exact between_prefix (by decide)
        · apply between_prefix
          rintro ⟨r, hr⟩
          exact absurd (congrArg (fun l => l[2]?) hr) (by simp)
        · exact between_prefix (by decide)
        · apply between_prefix
          rintro ⟨r, hr⟩
          exact absurd (congrArg (fun l => l[2]?) hr) (by simp)
        · exact between_prefix (by decide)
    · unfold valueRows
      rw [hall, List.filterMap_append, List.filterMap_append]
      have h1 : (headLines n w).filterMap (cells "` | " " |") = [] := by
        rw [List.filterMap_eq_nil_iff]
        intro l hl
        apply cells_prefix
        unfold headLines at hl
        simp only [List.mem_cons, List.not_mem_nil, or_false] at hl
        rcases hl with rfl | rfl | rfl | rfl | rfl | rfl | rfl | rfl | rfl | rfl | rfl | rfl
        · decide
        · decide
        · rintro ⟨r, hr⟩
          exact absurd (congrArg (fun l => l[0]?) hr) (by simp)
        · decide
        · rintro ⟨r, hr⟩
          exact absurd (congrArg (fun l => l[0]?) hr) (by simp)
        · decide
        · rintro ⟨r, hr⟩
          exact absurd (congrArg (fun l => l[0]?) hr) (by simp)
        · decide
        · decide
        · decide
        · decide
        · decide
      have h2 : [[]].filterMap (cells "` | " " |") = [] := by decide
      rw [h1, h2, List.nil_append, List.append_nil]
      clear hall hrows hd h
      induction d with
      | nil => rfl
      | cons p d ih =>
        rw [List.flatMap_cons, List.filterMap_append, ih fun p hp => hrow p (List.mem_cons_of_mem _ hp)]
        have := cells_self (post := " |") (hrow p List.mem_cons_self).1.2 mid2_toList (n.value p.1 p.2)
        rw [List.filterMap_cons]
        unfold valueLine
        rw [this]
        rfl

/-- **C79, consequence.** If numbers are written without loss, equal texts mean equal EFT, basis, scale
and coefficients, in the same order. -/
theorem C79_determines (fl : String → Option ℝ) (n n' : NumText) (w w' : WC) (d d' : Dict String ℂ) (t : String)
    (hs : ∀ x y, n.scale x = n'.scale y → x = y) (hv : ∀ k k' x y, n.value k x = n'.value k' y → x = y)
    (h : w.dict fl = .ok d) (h' : w'.dict fl = .ok d')
    (ht : (strWC fl n w).1 = .ok t) (ht' : (strWC fl n' w').1 = .ok t)
    (h1 : OneLine w.eft ∧ OneLine w.basis ∧ OneLine (n.scale w.scale))
    (h1' : OneLine w'.eft ∧ OneLine w'.basis ∧ OneLine (n'.scale w'.scale))
    (h2 : ∀ p ∈ d, Quotable p.1 ∧ OneLine (n.value p.1 p.2))
    (h2' : ∀ p ∈ d', Quotable p.1 ∧ OneLine (n'.value p.1 p.2)) :
    w.eft = w'.eft ∧ w.basis = w'.basis ∧ w.scale = w'.scale ∧ d = d' := by
  obtain ⟨u, hu, a1, a2, a3, a4⟩ := (C79_text fl n w).2.2 d h h1.1 h1.2.1 h1.2.2 h2
  obtain ⟨u', hu', b1, b2, b3, b4⟩ := (C79_text fl n' w').2.2 d' h' h1'.1 h1'.2.1 h1'.2.2 h2'
  rw [ht] at hu
  rw [ht'] at hu'
  cases hu
  cases hu'
  refine ⟨Option.some.inj (a1.symm.trans b1), Option.some.inj (a2.symm.trans b2),
    hs _ _ (Option.some.inj (a3.symm.trans b3)), ?_⟩
  have e := a4.symm.trans b4
  clear a4 b4 a1 a2 a3 b1 b2 b3 h h' h2 h2'
  induction d generalizing d' with
  | nil => cases d' with
    | nil => rfl
    | cons p d' => simp at e
  | cons p d ih => cases d' with
    | nil => simp at e
    | cons p' d' =>
      simp only [List.map_cons, List.cons.injEq, Prod.mk.injEq] at e
      rw [ih d' e.2, Prod.ext e.1.1 (hv _ _ _ _ e.1.2)]

/-- **C79, short form.** `repr` tells objects of different EFT, basis or scale apart (names without quotes). -/
theorem C79_repr (n : NumText) (w w' : WC) (hs : ∀ x y, n.scale x = n.scale y → x = y)
    (h : '\'' ∉ w.eft.toList ∧ '\'' ∉ w.basis.toList) (h' : '\'' ∉ w'.eft.toList ∧ '\'' ∉ w'.basis.toList)
    (e : reprWC n w = reprWC n w') : w.eft = w'.eft ∧ w.basis = w'.basis ∧ w.scale = w'.scale := by
  have e := congrArg String.toList e
  unfold reprWC at e
  simp only [String.toList_append, List.append_assoc, List.append_cancel_left_eq] at e
  have e0 : "', basis='".toList = '\'' :: ", basis='".toList := by decide
  have e1 : "', scale='".toList = '\'' :: ", scale='".toList := by decide
  rw [e0, e1] at e
  simp only [List.cons_append] at e
  obtain ⟨h1, h2⟩ := until_quote h.1 h'.1 e
  rw [List.append_cancel_left_eq] at h2
  obtain ⟨h3, h4⟩ := until_quote h.2 h'.2 h2
  rw [List.append_cancel_left_eq, List.append_left_inj] at h4
  exact ⟨String.toList_inj.1 h1, String.toList_inj.1 h3, hs _ _ (String.toList_inj.1 h4)⟩

/-- Concrete cases of the short forms. -/
example : reprBasis ⟨"WET", "JMS", [], none, none⟩ = "wcxf.Basis('WET', 'JMS', {...})" ∧
    reprWC ⟨fun _ => "160.0", fun _ _ => ""⟩ ⟨"WET", "JMS", 160, .null, .none, []⟩ =
      "wcxf.WC(eft='WET', basis='JMS', scale='160.0', values={...})" := by
  constructor <;> decide

/-- Concrete case of C79: one real and one complex value. -/
example (fl : String → Option ℝ) :
    let n : NumText := ⟨fun _ => "160.0", fun k _ => if k = "A" then "1.0" else "(1+2j)"⟩
    let w : WC := ⟨"SMEFT", "Warsaw", 160, .obj [("A", .num 1), ("B", .obj [("Re", .num 1), ("Im", .num 2)])], .none, []⟩
    ∃ t, (strWC fl n w).1 = .ok t ∧ field "**Basis:** `" "`" t = some "Warsaw" ∧
      valueRows t = [("A", "1.0"), ("B", "(1+2j)")] := by
  intro n w
  obtain ⟨t, h1, _, h2, _, h3⟩ := (C79_text fl n w).2.2
    [("A", ((1 : ℝ) : ℂ)), ("B", ((1 : ℝ) : ℂ) + Complex.I * ((2 : ℝ) : ℂ))] rfl (by unfold OneLine; decide) (by unfold OneLine; decide)
    (by unfold OneLine; decide) (by
      intro p hp
      simp only [List.mem_cons, List.not_mem_nil, or_false] at hp
      unfold Quotable OneLine
      rcases hp with rfl | rfl <;> exact ⟨by decide, by decide⟩)
  exact ⟨t, h1, h2, h3⟩

end Verif
