import Mathlib.Tactic.Ring
import Mathlib.Tactic.Linarith
import Mathlib.Data.List.Induction
import Verif.Model.Symm
import Verif.Spec.Symm

/-! Symbolic execution of assignment lists. -/

set_option autoImplicit false

namespace Verif

variable {I : Type}

/-- A real component of an array: index and real (`false`) or imaginary (`true`) part. -/
abbrev Comp (I : Type) := I × Bool

/-- Integer linear combination of components. -/
abbrev Form (I : Type) := List (ℤ × Comp I)

def part (b : Bool) (z : ℂ) : ℝ := if b then z.im else z.re

theorem ext_part {z w : ℂ} (h : ∀ b, part b z = part b w) : z = w :=
  Complex.ext (h false) (h true)

def Form.eval (a : I → ℂ) (f : Form I) : ℝ := (f.map fun t => (t.1 : ℝ) * part t.2.2 (a t.2.1)).sum

@[simp] theorem Form.eval_nil (a : I → ℂ) : Form.eval a [] = 0 := rfl
@[simp] theorem Form.eval_cons (a : I → ℂ) (t : ℤ × Comp I) (f : Form I) :
    Form.eval a (t :: f) = (t.1 : ℝ) * part t.2.2 (a t.2.1) + Form.eval a f := by simp [Form.eval]
@[simp] theorem Form.eval_append (a : I → ℂ) (f g : Form I) : Form.eval a (f ++ g) = Form.eval a f + Form.eval a g := by
  simp [Form.eval]

def Form.scale (k : ℤ) (f : Form I) : Form I := f.map fun t => (k * t.1, t.2)

theorem Form.eval_scale (a : I → ℂ) (k : ℤ) (f : Form I) : Form.eval a (Form.scale k f) = k * Form.eval a f := by
  induction f with
  | nil => simp [Form.scale]
  | cons t f ih =>
    simp only [Form.scale, List.map_cons, Form.eval_cons, Int.cast_mul] at ih ⊢
    rw [ih]; ring

section
variable [DecidableEq I]

/-- What an assignment stores into a component, if it changes it. -/
def Asg.rhs : Asg I → Comp I → Option (Form I)
  | .re d s, c => if c = (d, false) then some [(1, (s, false))] else none
  | .im d s, c => if c = (d, true) then some [(1, (s, true))] else none
  | .imNeg d s, c => if c = (d, true) then some [(-1, (s, true))] else none
  | .imZero d, c => if c = (d, true) then some [] else none
  | .conj d s, c => if c.1 = d then some [(if c.2 then -1 else 1, (s, c.2))] else none
  | .copy d s, c => if c.1 = d then some [(1, (s, c.2))] else none
  | .lin d x y z, c => if c.1 = d then some [(1, (x, c.2)), (1, (y, c.2)), (-1, (z, c.2))] else none

theorem part_exec (a : I → ℂ) (s : Asg I) (c : Comp I) :
    part c.2 (Asg.exec a s c.1) = Form.eval a ((s.rhs c).getD [(1, c)]) := by
  obtain ⟨i, b⟩ := c
  cases s <;> cases b <;> simp only [Asg.exec, Asg.rhs, Function.update_apply, Prod.mk.injEq, and_true, and_false,
    Bool.false_eq_true, Bool.true_eq_false, if_false] <;>
    (try split) <;> simp_all [part] <;> ring

theorem part_exec_none (a : I → ℂ) (s : Asg I) (c : Comp I) (h : s.rhs c = none) :
    part c.2 (Asg.exec a s c.1) = part c.2 (a c.1) := by
  rw [part_exec, h]; simp

theorem part_exec_some (a : I → ℂ) (s : Asg I) (c : Comp I) (f : Form I) (h : s.rhs c = some f) :
    part c.2 (Asg.exec a s c.1) = Form.eval a f := by
  rw [part_exec, h]; simp

/-- The components read by an assignment. -/
def Asg.sources : Asg I → List (Comp I)
  | .re _ s => [(s, false)]
  | .im _ s => [(s, true)]
  | .imNeg _ s => [(s, true)]
  | .imZero _ => []
  | .conj _ s => [(s, false), (s, true)]
  | .copy _ s => [(s, false), (s, true)]
  | .lin _ x y z => [(x, false), (x, true), (y, false), (y, true), (z, false), (z, true)]

theorem mem_sources {s : Asg I} {c : Comp I} {f : Form I} (h : s.rhs c = some f) : ∀ t ∈ f, t.2 ∈ s.sources := by
  obtain ⟨i, b⟩ := c
  cases s <;> simp only [Asg.rhs] at h <;> split at h <;> simp only [Option.some.injEq, reduceCtorEq] at h <;>
    subst h <;> cases b <;> simp [Asg.sources]

/-- No component that is read is written by any assignment. -/
def Clean (prog : List (Asg I)) : Prop := ∀ s ∈ prog, ∀ c ∈ s.sources, ∀ s' ∈ prog, s'.rhs c = none

instance (prog : List (Asg I)) : Decidable (Clean prog) := by unfold Clean; infer_instance

/-- The last assignment to a component (in a reversed program), as a combination of initial components. -/
def look : List (Asg I) → Comp I → Form I
  | [], c => [(1, c)]
  | s :: l, c => match s.rhs c with
    | some f => f
    | none => look l c

theorem part_unread (prog : List (Asg I)) (a : I → ℂ) (c : Comp I) (h : ∀ s ∈ prog, s.rhs c = none) :
    part c.2 (execProg prog a c.1) = part c.2 (a c.1) := by
  induction prog generalizing a with
  | nil => rfl
  | cons s prog ih =>
    change part c.2 (execProg prog (Asg.exec a s) c.1) = _
    rw [ih _ fun s hs => h s (by simp [hs]), part_exec_none a s c (h s (by simp))]

/-- The result of a clean program at a component. -/
theorem part_execProg (prog : List (Asg I)) (hc : Clean prog) (a : I → ℂ) (c : Comp I) :
    part c.2 (execProg prog a c.1) = Form.eval a (look prog.reverse c) := by
  have key : ∀ l : List (Asg I), (∀ s ∈ l, s ∈ prog) →
      part c.2 (execProg l a c.1) = Form.eval a (look l.reverse c) := by
    intro l
    induction l using List.reverseRecOn with
    | nil => intro _; simp [execProg, look]
    | append_singleton l s ih =>
      intro hl
      have he : execProg (l ++ [s]) a = Asg.exec (execProg l a) s := by simp [execProg]
      rw [he, List.reverse_append, List.reverse_singleton, List.singleton_append, look]
      cases hr : s.rhs c with
      | none =>
        rw [part_exec_none _ _ _ hr]
        exact ih fun s hs => hl s (by simp [hs])
      | some f =>
        rw [part_exec_some _ _ _ _ hr]
        have hsrc := mem_sources hr
        dsimp only
        clear hr he
        induction f with
        | nil => rfl
        | cons t f ihf =>
          rw [Form.eval_cons, Form.eval_cons, ihf fun t ht => hsrc t (by simp [ht]), part_unread l a t.2]
          intro s' hs'
          exact hc s (hl s (by simp)) _ (hsrc t (by simp)) s' (hl s' (by simp [hs']))
  exact key prog fun _ h => h

/-- Coefficient of a component. -/
def Form.coef (f : Form I) (c : Comp I) : ℤ := (f.map fun t => if t.2 = c then t.1 else 0).sum

/-- All coefficients vanish. -/
def Form.isZero (f : Form I) : Bool := f.all fun t => Form.coef f t.2 = 0

def Form.drop (f : Form I) (c : Comp I) : Form I := f.filter fun t => t.2 ≠ c

theorem Form.eval_split (a : I → ℂ) (f : Form I) (c : Comp I) :
    Form.eval a f = (Form.coef f c : ℝ) * part c.2 (a c.1) + Form.eval a (Form.drop f c) := by
  induction f with
  | nil => simp [Form.coef, Form.drop]
  | cons t f ih =>
    by_cases h : t.2 = c
    · subst h
      simp only [Form.eval_cons, ih, Form.coef, List.map_cons, if_true, List.sum_cons, Int.cast_add, Form.drop,
        List.filter_cons, ne_eq, not_true_eq_false, decide_false]
      simp
      ring
    · simp only [Form.eval_cons, ih, Form.coef, List.map_cons, h, if_false, List.sum_cons, zero_add, Form.drop,
        List.filter_cons, ne_eq, not_false_eq_true, decide_true, if_true]
      ring

theorem Form.coef_drop (f : Form I) (c c' : Comp I) (h : c' ≠ c) : Form.coef (Form.drop f c) c' = Form.coef f c' := by
  induction f with
  | nil => rfl
  | cons t f ih =>
    simp only [Form.coef, Form.drop, List.filter_cons] at ih ⊢
    by_cases ht : t.2 = c
    · have : ¬ c = c' := fun e => h e.symm
      simpa [ht, this] using ih
    · simpa [ht] using ih

theorem Form.eval_of_isZero (a : I → ℂ) (f : Form I) (h : f.isZero = true) : Form.eval a f = 0 := by
  generalize hn : f.length = n
  induction n using Nat.strong_induction_on generalizing f with
  | _ n ih =>
    cases f with
    | nil => rfl
    | cons t f =>
      rw [Form.eval_split a _ t.2]
      have h' : ∀ u ∈ t :: f, Form.coef (t :: f) u.2 = 0 := by
        simpa [Form.isZero] using h
      rw [h' t (by simp), ih (Form.drop (t :: f) t.2).length _ _ _ rfl]
      · simp
      · rw [← hn]
        simp only [Form.drop, List.filter_cons, ne_eq, not_true_eq_false, decide_false, Bool.false_eq_true, if_false]
        exact Nat.lt_succ_of_le (List.length_filter_le _ _)
      · simp only [Form.isZero, List.all_eq_true, decide_eq_true_eq]
        intro u hu
        have hu' := (List.mem_filter.1 hu)
        rw [Form.coef_drop _ _ _ (by simpa using hu'.2)]
        exact h' u hu'.1

/-- Equality of two combinations as a check on their coefficients. -/
def Form.same (f g : Form I) : Bool := Form.isZero (f ++ Form.scale (-1) g)

theorem Form.eval_of_same (a : I → ℂ) {f g : Form I} (h : f.same g = true) : Form.eval a f = Form.eval a g := by
  have := Form.eval_of_isZero a _ h
  rw [Form.eval_append, Form.eval_scale] at this
  push_cast at this
  linarith

/-- Equality of final entries from a check. -/
theorem prog_eq {prog : List (Asg I)} (hc : Clean prog) (i j : I)
    (h : ∀ b, Form.same (look prog.reverse (i, b)) (look prog.reverse (j, b)) = true) (a : I → ℂ) :
    execProg prog a i = execProg prog a j := by
  apply ext_part
  intro b
  rw [part_execProg prog hc a (i, b), part_execProg prog hc a (j, b), Form.eval_of_same a (h b)]

/-- Conjugation of final entries from a check. -/
theorem prog_conj {prog : List (Asg I)} (hc : Clean prog) (i j : I)
    (h : ∀ b, Form.same (look prog.reverse (i, b)) (Form.scale (if b then -1 else 1) (look prog.reverse (j, b))) = true)
    (a : I → ℂ) : execProg prog a i = (starRingEnd ℂ) (execProg prog a j) := by
  apply ext_part
  intro b
  rw [part_execProg prog hc a (i, b), Form.eval_of_same a (h b), Form.eval_scale, ← part_execProg prog hc a (j, b)]
  cases b <;> simp [part]

/-- A relation with two terms on each side from a check. -/
theorem prog_two {prog : List (Asg I)} (hc : Clean prog) (i j k l : I)
    (h : ∀ b, Form.same (look prog.reverse (i, b) ++ look prog.reverse (j, b))
      (look prog.reverse (k, b) ++ look prog.reverse (l, b)) = true) (a : I → ℂ) :
    execProg prog a i + execProg prog a j = execProg prog a k + execProg prog a l := by
  apply ext_part
  intro b
  have := Form.eval_of_same a (h b)
  rw [Form.eval_append, Form.eval_append, ← part_execProg prog hc a (i, b), ← part_execProg prog hc a (j, b),
    ← part_execProg prog hc a (k, b), ← part_execProg prog hc a (l, b)] at this
  cases b <;> simpa [part] using this

/-- The result depends only on the components mentioned. -/
theorem prog_congr {prog : List (Asg I)} (hc : Clean prog) (P : Comp I → Prop)
    (h : ∀ c, ∀ t ∈ look prog.reverse c, P t.2)
    (a b : I → ℂ) (hab : ∀ c, P c → part c.2 (a c.1) = part c.2 (b c.1)) : execProg prog a = execProg prog b := by
  funext i
  apply ext_part
  intro k
  rw [part_execProg prog hc a (i, k), part_execProg prog hc b (i, k)]
  have := h (i, k)
  generalize look prog.reverse (i, k) = f at this
  induction f with
  | nil => rfl
  | cons t f ih =>
    rw [Form.eval_cons, Form.eval_cons, hab _ (this t (by simp)), ih fun t ht => this t (by simp [ht])]

/-- An assignment that changes nothing, given pairs of entries known to be equal, known to be conjugate, and
known sums. -/
def Asg.idle (eq cj : I → I → Bool) (sm : I → I → I → I → Bool) : Asg I → Bool
  | .re d s => eq d s || cj d s
  | .im d s => eq d s
  | .imNeg d s => cj d s
  | .imZero d => cj d d
  | .conj d s => cj d s
  | .copy d s => eq d s
  | .lin d x y z => sm d z x y

theorem exec_idle {eq cj : I → I → Bool} {sm : I → I → I → I → Bool} {b : I → ℂ} (h1 : ∀ i j, eq i j → b i = b j)
    (h2 : ∀ i j, cj i j → b i = (starRingEnd ℂ) (b j)) (h3 : ∀ i j k l, sm i j k l → b i + b j = b k + b l)
    (s : Asg I) (h : s.idle eq cj sm = true) : Asg.exec b s = b := by
  have im0 : ∀ d, cj d d → (b d).im = 0 := by
    intro d hd
    have := congrArg Complex.im (h2 d d hd)
    simp only [Complex.conj_im] at this
    linarith
  cases s with
  | re d s =>
    rcases Bool.or_eq_true_iff.1 h with h | h
    · simp [Asg.exec, ← h1 d s h]
    · have : (b s).re = (b d).re := by rw [h2 d s h]; simp
      simp [Asg.exec, this]
  | im d s => simp [Asg.exec, ← h1 d s h]
  | imNeg d s =>
    have : -(b s).im = (b d).im := by rw [h2 d s h]; simp
    simp [Asg.exec, this]
  | imZero d =>
    have := im0 d h
    simp [Asg.exec, ← this]
  | conj d s =>
    have e1 : -(b s).im = (b d).im := by rw [h2 d s h]; simp
    have e2 : (b s).re = (b d).re := by rw [h2 d s h]; simp
    simp [Asg.exec, e1, e2]
  | copy d s => simp [Asg.exec, ← h1 d s h]
  | lin d x y z =>
    have : b x + b y - b z = b d := by rw [← h3 _ _ _ _ h]; ring
    simp [Asg.exec, this]

/-- If no assignment changes `b`, the program does not. -/
theorem prog_fix (prog : List (Asg I)) (b : I → ℂ) (h : ∀ s ∈ prog, Asg.exec b s = b) : execProg prog b = b := by
  unfold execProg
  induction prog with
  | nil => rfl
  | cons s prog ih => rw [List.foldl_cons, h s (by simp)]; exact ih fun s hs => h s (by simp [hs])

end

end Verif
