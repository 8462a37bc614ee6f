import Verif.Model.Markdown
import Verif.Spec.Markdown
import Verif.Lemmas.WCLemmas

/-!
Lines of the text forms.
-/

set_option autoImplicit false

namespace Verif

open Spec

/-- The text consists of the given complete lines. -/
def Whole (s : String) (ls : List (List Char)) : Prop := ∀ t, mdLines (s ++ t) = ls ++ mdLines t

theorem Whole.nil : Whole "" [] := by intro t; simp

theorem Whole.append {s s' : String} {ls ls' : List (List Char)} (h : Whole s ls) (h' : Whole s' ls') :
    Whole (s ++ s') (ls ++ ls') := by
  intro t
  rw [String.append_assoc, h, h', List.append_assoc]

theorem Whole.of_toList {s : String} {ls : List (List Char)} (h : s.toList = ls.flatMap (· ++ ['\n']))
    (h2 : ∀ l ∈ ls, '\n' ∉ l) : Whole s ls := by
  intro t
  unfold mdLines
  rw [String.toList_append, h]
  clear h
  induction ls with
  | nil => simp
  | cons l ls ih =>
    have e : (l :: ls).flatMap (· ++ ['\n']) ++ t.toList = l ++ '\n' :: (ls.flatMap (· ++ ['\n']) ++ t.toList) := by
      simp
    rw [e, List.splitOn_append_cons_self, ih (fun l hl => h2 l (List.mem_cons_of_mem _ hl)),
      List.splitOn_eq_singleton]
    · rfl
    · exact h2 l List.mem_cons_self

theorem Whole.join {α : Type} (f : α → String) (g : α → List (List Char)) (l : List α)
    (h : ∀ a ∈ l, Whole (f a) (g a)) : Whole (String.join (l.map f)) (l.flatMap g) := by
  induction l with
  | nil => exact Whole.nil
  | cons a l ih =>
    have : String.join ((a :: l).map f) = f a ++ String.join (l.map f) := by simp
    rw [this, List.flatMap_cons]
    exact (h a List.mem_cons_self).append (ih fun b hb => h b (List.mem_cons_of_mem _ hb))

theorem Whole.lines {s : String} {ls : List (List Char)} (h : Whole s ls) : mdLines s = ls ++ [[]] := by
  have := h ""
  rw [String.append_empty] at this
  rw [this]
  rfl

theorem between_self (pre post : String) (m : List Char) :
    between pre post (pre.toList ++ (m ++ post.toList)) = some m := by
  unfold between
  rw [if_pos (List.prefix_append _ _)]
  simp

theorem between_prefix {pre post : String} {l : List Char} (h : ¬ pre.toList <+: l) : between pre post l = none := by
  unfold between
  rw [if_neg h]

theorem between_suffix {pre post post' : String} {m : List Char} (h : post.toList.length = post'.toList.length)
    (h2 : post ≠ post') : between pre post (pre.toList ++ (m ++ post'.toList)) = none := by
  unfold between
  rw [if_pos (List.prefix_append _ _)]
  simp only [List.drop_left']
  rw [if_neg]
  rintro ⟨r, hr⟩
  exact h2 (String.toList_inj.1 (List.append_inj_right' hr h))

theorem cells_self {mid post : String} {name : String} (hn : '`' ∉ name.toList) {mid' : List Char}
    (hm : mid.toList = '`' :: mid') (v : String) :
    cells mid post ("| `".toList ++ (name.toList ++ (mid.toList ++ (v.toList ++ post.toList)))) = some (name, v) := by
  unfold cells
  rw [if_pos (List.prefix_append _ _)]
  have e : ("| `".toList ++ (name.toList ++ (mid.toList ++ (v.toList ++ post.toList)))).drop 3 =
      name.toList ++ (mid.toList ++ (v.toList ++ post.toList)) := rfl
  have e2 : (name.toList ++ (mid.toList ++ (v.toList ++ post.toList))).takeWhile (· ≠ '`') = name.toList := by
    rw [List.takeWhile_append_of_pos (by
      intro c hc
      simp only [ne_eq, decide_not, Bool.not_eq_eq_eq_not, Bool.not_true, decide_eq_false_iff_not]
      rintro rfl
      exact hn hc), hm]
    simp
  simp only [e, e2, List.drop_left', between_self]
  simp

theorem cells_other {mid post post' : String} {name : String} (hn : '`' ∉ name.toList) {mid' : List Char}
    (hm : mid.toList = '`' :: mid') (v : String) (h : post.toList.length = post'.toList.length) (h2 : post ≠ post') :
    cells mid post ("| `".toList ++ (name.toList ++ (mid.toList ++ (v.toList ++ post'.toList)))) = none := by
  unfold cells
  rw [if_pos (List.prefix_append _ _)]
  have e : ("| `".toList ++ (name.toList ++ (mid.toList ++ (v.toList ++ post'.toList)))).drop 3 =
      name.toList ++ (mid.toList ++ (v.toList ++ post'.toList)) := rfl
  have e2 : (name.toList ++ (mid.toList ++ (v.toList ++ post'.toList))).takeWhile (· ≠ '`') = name.toList := by
    rw [List.takeWhile_append_of_pos (by
      intro c hc
      simp only [ne_eq, decide_not, Bool.not_eq_eq_eq_not, Bool.not_true, decide_eq_false_iff_not]
      rintro rfl
      exact hn hc), hm]
    simp
  simp only [e, e2, List.drop_left', between_suffix h h2]
  simp

theorem cells_prefix {mid post : String} {l : List Char} (h : ¬ "| `".toList <+: l) : cells mid post l = none := by
  unfold cells
  rw [if_neg h]

/-! ### Bases -/

/-- A row as one line. -/
def rowLine (q : String × String × Bool) : List Char :=
  "| `".toList ++ (q.1.toList ++ ("` | $".toList ++ (q.2.1.toList ++ (if q.2.2 then "$ | R |" else "$ | C |").toList)))

theorem mid_toList : "` | $".toList = '`' :: " | $".toList := by decide

theorem basisRow_rowLine (q : String × String × Bool) (h : '`' ∉ q.1.toList) : basisRow (rowLine q) = some q := by
  obtain ⟨n, x, b⟩ := q
  have h1 := cells_other (post := "$ | R |") (post' := "$ | C |") h mid_toList x (by decide) (by decide)
  have h2 := cells_self (post := "$ | C |") h mid_toList x
  have h3 := cells_self (post := "$ | R |") h mid_toList x
  unfold basisRow rowLine
  cases b
  · simp only [Bool.false_eq_true, if_false, h1, h2, Option.map_some]
  · simp only [if_true, h3]

/-- The lines of a sector. -/
def sectorLines (p : String × List (String × String × Bool)) : List (List Char) :=
  [("### `".toList ++ (p.1.toList ++ "`".toList)), []] ++
  if p.2 = [] then [] else
    ["| WC name | Operator | Type |".toList, ("|" ++ String.ofList (List.replicate 18 '-') ++ "|" ++
      String.ofList (List.replicate 48 '-') ++ "|" ++ String.ofList (List.replicate 6 '-') ++ "|").toList] ++
    p.2.map rowLine

theorem sections_cons_other {l : List Char} {ls : List (List Char)} (h1 : ¬ "### `".toList <+: l)
    (h2 : ¬ "| `".toList <+: l) : sections (l :: ls) = sections ls := by
  rw [sections, between_prefix h1]
  unfold basisRow
  rw [cells_prefix h2, cells_prefix h2]
  rfl

theorem rowLine_not_heading (q : String × String × Bool) : ¬ "### `".toList <+: rowLine q := by
  have : rowLine q = '|' :: (rowLine q).tail := by unfold rowLine; rfl
  rw [this]
  have : "### `".toList = '#' :: "## `".toList := rfl
  rw [this, List.cons_prefix_cons]
  rintro ⟨h, _⟩
  exact absurd h (by decide)

theorem sections_rows (rows : List (String × String × Bool)) (h : ∀ q ∈ rows, '`' ∉ q.1.toList)
    (rest : List (List Char)) :
    sections (rows.map rowLine ++ rest) = ((sections rest).1, rows ++ (sections rest).2) := by
  induction rows with
  | nil => simp
  | cons q rows ih =>
    rw [List.map_cons, List.cons_append, sections, between_prefix (rowLine_not_heading q),
      ih fun q hq => h q (List.mem_cons_of_mem _ hq)]
    simp only [basisRow_rowLine q (h q List.mem_cons_self)]
    rfl

theorem sections_sector (p : String × List (String × String × Bool)) (h : ∀ q ∈ p.2, '`' ∉ q.1.toList)
    (rest : List (List Char)) (hr : (sections rest).2 = []) :
    sections (sectorLines p ++ rest) = (p :: (sections rest).1, []) := by
  obtain ⟨s, rows⟩ := p
  have hb : sections ([] :: ((if rows = [] then [] else
      ["| WC name | Operator | Type |".toList, ("|" ++ String.ofList (List.replicate 18 '-') ++ "|" ++
        String.ofList (List.replicate 48 '-') ++ "|" ++ String.ofList (List.replicate 6 '-') ++ "|").toList] ++
      rows.map rowLine) ++ rest)) = ((sections rest).1, rows) := by
    rw [sections_cons_other (by decide) (by decide)]
    by_cases he : rows = []
    · subst he
      rw [if_pos rfl, List.nil_append]
      exact Prod.ext rfl hr
    · rw [if_neg he, List.append_assoc, List.cons_append, sections_cons_other (by decide) (by decide),
        List.cons_append, sections_cons_other (by decide) (by decide), List.nil_append, sections_rows rows h, hr,
        List.append_nil]
  unfold sectorLines
  dsimp only at *
  rw [List.append_assoc, List.cons_append, List.cons_append, List.nil_append, sections, hb, between_self]
  simp

theorem sections_all (sec : List (String × List (String × String × Bool)))
    (h : ∀ p ∈ sec, ∀ q ∈ p.2, '`' ∉ q.1.toList) : sections (sec.flatMap sectorLines ++ [[]]) = (sec, []) := by
  induction sec with
  | nil => rfl
  | cons p sec ih =>
    have ih := ih fun p hp => h p (List.mem_cons_of_mem _ hp)
    rw [List.flatMap_cons, List.append_assoc, sections_sector p (h p List.mem_cons_self) _ (by rw [ih]), ih]

end Verif
