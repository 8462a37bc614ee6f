import Verif.Model.Cli

set_option autoImplicit false

namespace Verif

/-- The file an action works on. -/
def Action.path : Action → String
  | .truncate p => p
  | .write p _ => p

theorem after_append (w : World) (l l' : List Action) : w.after (l ++ l') = (w.after l).after l' := by
  simp [World.after]

theorem after_other (w : World) (l : List Action) (p : String) (h : ∀ a ∈ l, a.path ≠ p) :
    (w.after l).file p = w.file p := by
  induction l generalizing w with
  | nil => rfl
  | cons a l ih =>
    change ((a.apply w).after l).file p = _
    rw [ih _ fun b hb => h b (by simp [hb])]
    have := h a (by simp)
    cases a with
    | truncate q => exact Function.update_of_ne (Ne.symm this) _ _
    | write q c => exact Function.update_of_ne (Ne.symm this) _ _

theorem after_isDir (w : World) (l : List Action) : (w.after l).isDir = w.isDir := by
  induction l generalizing w with
  | nil => rfl
  | cons a l ih =>
    change ((a.apply w).after l).isDir = _
    rw [ih]
    cases a <;> rfl

theorem writeText_path {p t : String} {a : Action} (h : a ∈ writeText p t) : a.path = p := by
  obtain ⟨c, _, rfl⟩ := List.mem_map.1 h
  rfl

theorem after_write (w : World) (p : String) (old : String) (h : w.file p = some old) (l : List Char) :
    (w.after (l.map (Action.write p))).file p = some (old ++ String.ofList l) := by
  induction l generalizing w old with
  | nil => simpa [World.after] using h
  | cons c l ih =>
    change ((Action.apply w (.write p c)).after (l.map (Action.write p))).file p = _
    rw [ih _ (old ++ String.singleton c)]
    · rw [String.append_assoc]
      congr 2
      apply String.toList_inj.1
      simp
    · change Function.update w.file p _ p = _
      rw [Function.update_self, h]
      rfl

theorem after_writeText (w : World) (p : String) (h : w.file p = some "") (t : String) :
    (w.after (writeText p t)).file p = some t := by
  rw [writeText, after_write w p "" h]
  simp

theorem after_writeText_take (w : World) (p : String) (h : w.file p = some "") (t : String) (k : ℕ) :
    (w.after ((writeText p t).take k)).file p = some (String.ofList (t.toList.take k)) := by
  rw [writeText, ← List.map_take, after_write w p "" h]
  simp

theorem after_truncate (w : World) (p : String) : (w.after [.truncate p]).file p = some "" :=
  Function.update_self ..

end Verif
