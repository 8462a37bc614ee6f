import Mathlib.Data.Fintype.Prod
import Verif.Lemmas.SymmChecks

/-! C29, C30, C31 for the functions on tensors. -/

set_option autoImplicit false

namespace Verif

open Spec

/-- **C29**, matrices. -/
theorem C29_matrix (b : Ix2 → ℂ) : Rel2 .herm (symmetrize2 b) ∧ Rel2 .symm (symmetrize9 b) :=
  ⟨fun p r => prog_conj clean2 _ _ (check2 p r) b, fun p r => prog_eq clean9 _ _ (check9 p r) b⟩

/-- **C29**, tensors: whatever the input, the completed tensor has all relations of its class. -/
theorem C29_tensor (b : Ix4 → ℂ) :
    Rel4 .twoIdentical (symmetrize4 b) ∧ Rel4 .twoDifferent (symmetrize5 b) ∧ Rel4 .singlet (symmetrize6 b) ∧
    Rel4 .qque (symmetrize7 b) ∧ Rel4 .qqql (symmetrize8 b) :=
  ⟨fun p r s t => ⟨prog_conj clean4 _ _ (check4 p r s t) b, prog_eq clean4 _ _ (check4' p r s t) b⟩,
   fun p r s t => prog_conj clean5 _ _ (check5 p r s t) b,
   fun p r s t => ⟨prog_conj clean6 _ _ (check6 p r s t) b, prog_eq clean6 _ _ (check6' p r s t) b,
     prog_eq clean6 _ _ (check6'' p r s t) b⟩,
   fun p r s t => prog_eq clean7 _ _ (check7 p r s t) b,
   fun p r s t => prog_two clean8 _ _ _ _ (check8 p r s t) b⟩

/-! ### Tensors that already have the relations -/

/-- **C30**, matrices. -/
theorem C30_matrix (b : Ix2 → ℂ) :
    (Rel2 .herm b → symmetrize2 b = b) ∧ (Rel2 .symm b → symmetrize9 b = b) := by
  constructor
  · intro h
    refine prog_fix prog2 b fun s hs => exec_idle (eq := fun _ _ => false) (cj := fun i j => decide (i = (j.2, j.1)))
      (sm := fun _ _ _ _ => false) (by simp) ?_ (by simp) s ?_
    · rintro i ⟨p, r⟩ hi; obtain rfl := of_decide_eq_true hi
      exact h p r
    · revert s; decide +kernel
  · intro h
    refine prog_fix prog9 b fun s hs => exec_idle (eq := fun i j => decide (i = (j.2, j.1))) (cj := fun _ _ => false)
      (sm := fun _ _ _ _ => false) ?_ (by simp) (by simp) s ?_
    · rintro i ⟨p, r⟩ hi; obtain rfl := of_decide_eq_true hi
      exact h p r
    · revert s; decide +kernel

section
set_option maxRecDepth 100000

/-- **C30**, tensors: a tensor with the relations of its class is returned unchanged. -/
theorem C30_tensor (b : Ix4 → ℂ) :
    (Rel4 .twoIdentical b → symmetrize4 b = b) ∧ (Rel4 .twoDifferent b → symmetrize5 b = b) ∧
    (Rel4 .singlet b → symmetrize6 b = b) ∧ (Rel4 .qque b → symmetrize7 b = b) ∧
    (Rel4 .qqql b → symmetrize8 b = b) := by
  refine ⟨fun h => ?_, fun h => ?_, fun h => ?_, fun h => ?_, fun h => ?_⟩
  · refine prog_fix prog4 b fun s hs => exec_idle
      (eq := fun i j => decide (i = (j.2.2.1, j.2.2.2, j.1, j.2.1)))
      (cj := fun i j => decide (i = (j.2.1, j.1, j.2.2.2, j.2.2.1) ∨ i = (j.2.2.2, j.2.2.1, j.2.1, j.1)))
      (sm := fun _ _ _ _ => false) ?_ ?_ (by simp) s ?_
    · rintro i ⟨p, r, s, t⟩ hi; obtain rfl := of_decide_eq_true hi
      exact (h p r s t).2
    · rintro i ⟨p, r, s, t⟩ hi; obtain (rfl | rfl) := of_decide_eq_true hi
      · exact (h p r s t).1
      · rw [← (h p r s t).1, ← (h r p t s).2]
    · revert s; decide +kernel
  · refine prog_fix prog5 b fun s hs => exec_idle (eq := fun _ _ => false)
      (cj := fun i j => decide (i = (j.2.1, j.1, j.2.2.2, j.2.2.1))) (sm := fun _ _ _ _ => false) (by simp) ?_ (by simp) s ?_
    · rintro i ⟨p, r, s, t⟩ hi; obtain rfl := of_decide_eq_true hi
      exact h p r s t
    · revert s; decide +kernel
  · refine prog_fix prog6 b fun s hs => exec_idle
      (eq := fun i j => decide (i = (j.2.2.1, j.2.2.2, j.1, j.2.1) ∨ i = (j.1, j.2.2.2, j.2.2.1, j.2.1) ∨
        i = (j.2.2.1, j.2.1, j.1, j.2.2.2)))
      (cj := fun i j => decide (i = (j.2.1, j.1, j.2.2.2, j.2.2.1) ∨ i = (j.2.2.2, j.2.2.1, j.2.1, j.1) ∨
        i = (j.2.2.2, j.1, j.2.1, j.2.2.1) ∨ i = (j.2.1, j.2.2.1, j.2.2.2, j.1)))
      (sm := fun _ _ _ _ => false) ?_ ?_ (by simp) s ?_
    · rintro i ⟨p, r, s, t⟩ hi; obtain (rfl | rfl | rfl) := of_decide_eq_true hi
      · exact (h p r s t).2.1
      · exact (h p r s t).2.2
      · exact ((h p t s r).2.1).trans ((h p r s t).2.2)
    · rintro i ⟨p, r, s, t⟩ hi; obtain (rfl | rfl | rfl | rfl) := of_decide_eq_true hi
      · exact (h p r s t).1
      · exact ((h r p t s).2.1).trans (h p r s t).1
      · exact ((h p t s r).1).trans (by rw [(h p r s t).2.2])
      · have := ((h s r p t).1).trans (by rw [((h p t s r).2.1).trans ((h p r s t).2.2)])
        exact this
    · revert s; decide +kernel
  · refine prog_fix prog7 b fun s hs => exec_idle (eq := fun i j => decide (i = (j.2.1, j.1, j.2.2.1, j.2.2.2)))
      (cj := fun _ _ => false) (sm := fun _ _ _ _ => false) ?_ (by simp) (by simp) s ?_
    · rintro i ⟨p, r, s, t⟩ hi; obtain rfl := of_decide_eq_true hi
      exact h p r s t
    · revert s; decide +kernel
  · refine prog_fix prog8 b fun s hs => exec_idle
      (eq := fun i j => decide (i.2.2.2 = j.2.2.2 ∧ i.2.1 = i.2.2.1 ∧ j.1 = i.2.1 ∧ j.2.1 = i.2.1 ∧ j.2.2.1 = i.1 ∨
        i.2.2.2 = j.2.2.2 ∧ j.2.1 = j.2.2.1 ∧ i.1 = j.2.1 ∧ i.2.1 = j.2.1 ∧ i.2.2.1 = j.1))
      (cj := fun _ _ => false)
      (sm := fun i j k l => decide (j = (i.2.1, i.1, i.2.2) ∧ k = (i.2.2.1, i.1, i.2.1, i.2.2.2) ∧ l = (i.2.2.1, i.2.1, i.1, i.2.2.2) ∨
        j = (i.2.1, i.1, i.2.2) ∧ l = (i.2.2.1, i.1, i.2.1, i.2.2.2) ∧ k = (i.2.2.1, i.2.1, i.1, i.2.2.2)))
      ?_ (by simp) ?_ s ?_
    · have key : ∀ y x t, b (y, y, x, t) = b (x, y, y, t) := by
        intro y x t
        have := h y y x t
        have h2 : (2 : ℂ) * b (y, y, x, t) = 2 * b (x, y, y, t) := by rw [two_mul, two_mul]; exact this
        exact mul_left_cancel₀ two_ne_zero h2
      rintro ⟨p, r, s, t⟩ ⟨p', r', s', t'⟩ hi
      have hi := of_decide_eq_true hi
      dsimp only at hi
      obtain ⟨rfl, rfl, rfl, rfl, rfl⟩ | ⟨rfl, rfl, rfl, rfl, rfl⟩ := hi
      · exact (key _ _ _).symm
      · exact key _ _ _
    · rintro ⟨p, r, s, t⟩ j k l hi; obtain ⟨rfl, rfl, rfl⟩ | ⟨rfl, rfl, rfl⟩ := of_decide_eq_true hi
      · exact h p r s t
      · rw [add_comm (b (s, r, p, t))]; exact h p r s t
    · revert s; decide +kernel

/-- **C30**, idempotence. -/
theorem C30_idempotent (b : Ix4 → ℂ) (m : Ix2 → ℂ) :
    symmetrize2 (symmetrize2 m) = symmetrize2 m ∧ symmetrize9 (symmetrize9 m) = symmetrize9 m ∧
    symmetrize4 (symmetrize4 b) = symmetrize4 b ∧ symmetrize5 (symmetrize5 b) = symmetrize5 b ∧
    symmetrize6 (symmetrize6 b) = symmetrize6 b ∧ symmetrize7 (symmetrize7 b) = symmetrize7 b ∧
    symmetrize8 (symmetrize8 b) = symmetrize8 b :=
  have h := C29_tensor b
  ⟨(C30_matrix _).1 (C29_matrix m).1, (C30_matrix _).2 (C29_matrix m).2, (C30_tensor _).1 h.1,
   (C30_tensor _).2.1 h.2.1, (C30_tensor _).2.2.1 h.2.2.1, (C30_tensor _).2.2.2.1 h.2.2.2.1,
   (C30_tensor _).2.2.2.2 h.2.2.2.2⟩

end

/-! ### Independent entries -/

/-- The completion of a tensor of a given class. -/
def sym4 : SymClass → (Ix4 → ℂ) → Ix4 → ℂ
  | .twoIdentical => symmetrize4
  | .twoDifferent => symmetrize5
  | .singlet => symmetrize6
  | .qque => symmetrize7
  | .qqql => symmetrize8
  | _ => id

/-- The completion of a matrix of a given class. -/
def sym2 : SymClass → (Ix2 → ℂ) → Ix2 → ℂ
  | .herm => symmetrize2
  | .symm => symmetrize9
  | _ => id

theorem congr4 {cls : SymClass} {prog : List (Asg Ix4)} (hc : Clean prog) (hr : Reads4 cls prog) (a b : Ix4 → ℂ)
    (h : ∀ i, Indep4 cls i → (a i).re = (b i).re ∧ (¬ Real4 cls i → (a i).im = (b i).im)) :
    execProg prog a = execProg prog b := by
  refine prog_congr hc (fun c => Indep4 cls c.1 ∧ (c.2 = true → ¬ Real4 cls c.1)) ?_ a b ?_
  · rintro ⟨⟨p, r, s, t⟩, k⟩
    exact hr p r s t k
  · rintro ⟨i, k⟩ ⟨h1, h2⟩
    cases k with
    | false => exact (h i h1).1
    | true => exact (h i h1).2 (h2 rfl)

theorem keep4 {cls : SymClass} {prog : List (Asg Ix4)} (hc : Clean prog) (hk : Keeps4 cls prog) (b : Ix4 → ℂ)
    (i : Ix4) (hi : Indep4 cls i) :
    execProg prog b i = if Real4 cls i then ((b i).re : ℂ) else b i := by
  obtain ⟨p, r, s, t⟩ := i
  obtain ⟨h1, h2⟩ := hk p r s t hi
  have e1 := (part_execProg prog hc b ((p, r, s, t), false)).trans (Form.eval_of_same b h1)
  have e2 := (part_execProg prog hc b ((p, r, s, t), true)).trans (Form.eval_of_same b h2)
  by_cases hreal : Real4 cls (p, r, s, t)
  · rw [if_pos hreal] at e2 ⊢
    apply Complex.ext
    · simpa [part] using e1
    · simpa [part] using e2
  · rw [if_neg hreal] at e2 ⊢
    apply Complex.ext
    · simpa [part] using e1
    · simpa [part] using e2

/-- **C31**, tensors. Two tensors that agree on the independent entries (on their real part, for those that
the relations make real) have the same completion. -/
theorem C31_tensor (cls : SymClass) (a b : Ix4 → ℂ)
    (h : ∀ i, Indep4 cls i → (a i).re = (b i).re ∧ (¬ Real4 cls i → (a i).im = (b i).im)) : sym4 cls a = sym4 cls b := by
  have hall : (∀ i, Indep4 cls i) → (∀ i, ¬ Real4 cls i) → a = b := by
    intro h1 h2
    funext i
    exact Complex.ext (h i (h1 i)).1 ((h i (h1 i)).2 (h2 i))
  cases cls with
  | herm => exact hall (fun _ => trivial) (fun _ h => h)
  | symm => exact hall (fun _ => trivial) (fun _ h => h)
  | twoIdentical => exact congr4 clean4 reads4 a b h
  | twoDifferent => exact congr4 clean5 reads5 a b h
  | singlet => exact congr4 clean6 reads6 a b h
  | qque => exact congr4 clean7 reads7 a b h
  | qqql => exact congr4 clean8 reads8 a b h

/-- **C31**, tensors: the independent entries are free. Completion keeps them (and removes the imaginary part
of those that the relations make real), so no smaller list would do. -/
theorem C31_tensor_free (cls : SymClass) (b : Ix4 → ℂ) (i : Ix4) (hi : Indep4 cls i) :
    sym4 cls b i = if Real4 cls i then ((b i).re : ℂ) else b i := by
  cases cls with
  | herm => rfl
  | symm => rfl
  | twoIdentical => exact keep4 clean4 keeps4 b i hi
  | twoDifferent => exact keep4 clean5 keeps5 b i hi
  | singlet => exact keep4 clean6 keeps6 b i hi
  | qque => exact keep4 clean7 keeps7 b i hi
  | qqql => exact keep4 clean8 keeps8 b i hi

/-- **C31**, matrices. -/
theorem C31_matrix (cls : SymClass) (hcls : cls = .herm ∨ cls = .symm) (a b : Ix2 → ℂ)
    (h : ∀ i, Indep2 i → (a i).re = (b i).re ∧ (¬ Real2 cls i → (a i).im = (b i).im)) : sym2 cls a = sym2 cls b := by
  rcases hcls with rfl | rfl
  · refine prog_congr clean2 (fun c => Indep2 c.1 ∧ (c.2 = true → ¬ Real2 .herm c.1)) (by decide +kernel) a b ?_
    rintro ⟨i, k⟩ ⟨h1, h2⟩
    cases k with
    | false => exact (h i h1).1
    | true => exact (h i h1).2 (h2 rfl)
  · refine prog_congr clean9 (fun c => Indep2 c.1) (by decide +kernel) a b ?_
    rintro ⟨i, k⟩ h1
    cases k with
    | false => exact (h i h1).1
    | true => exact (h i h1).2 id

/-- **C31**, matrices: the independent entries are free. -/
theorem C31_matrix_free (cls : SymClass) (b : Ix2 → ℂ) (i : Ix2) (hi : Indep2 i) :
    sym2 cls b i = if Real2 cls i then ((b i).re : ℂ) else b i := by
  cases cls with
  | herm =>
    have key : ∀ i : Ix2, Indep2 i → ∀ k, Form.same (look prog2.reverse (i, k))
        (if Real2 .herm i ∧ k = true then [] else [(1, (i, k))]) = true := by decide +kernel
    apply ext_part
    intro k
    change part k (execProg prog2 b i) = _
    rw [part_execProg prog2 clean2 b (i, k), Form.eval_of_same b (key i hi k)]
    by_cases hr : Real2 .herm i <;> cases k <;> simp [hr, part]
  | symm =>
    have key : ∀ i : Ix2, Indep2 i → ∀ k, Form.same (look prog9.reverse (i, k)) [(1, (i, k))] = true := by decide +kernel
    apply ext_part
    intro k
    change part k (execProg prog9 b i) = _
    rw [part_execProg prog9 clean9 b (i, k), Form.eval_of_same b (key i hi k)]
    simp [Real2]
  | _ => rfl

/-- A case: completing the tensor of `ll` with a single non-zero entry at (1, 1, 1, 2) sets the four related
entries. -/
example : sym4 .twoIdentical (fun i => if i = (0, 0, 0, 1) then Complex.I else 0) (1, 0, 0, 0) = -Complex.I ∧
    Indep4 .twoIdentical (0, 0, 0, 1) ∧ ¬ Indep4 .twoIdentical (1, 0, 0, 0) := by
  refine ⟨?_, by decide, by decide⟩
  obtain ⟨h1, h2⟩ := (C29_tensor fun i => if i = (0, 0, 0, 1) then Complex.I else 0).1 0 0 0 1
  obtain ⟨h3, h4⟩ := (C29_tensor fun i => if i = (0, 0, 0, 1) then Complex.I else 0).1 0 1 0 0
  change symmetrize4 _ (1, 0, 0, 0) = _
  rw [h3, h2]
  change (starRingEnd ℂ) (sym4 .twoIdentical _ (0, 0, 0, 1)) = _
  rw [C31_tensor_free _ _ _ (by decide), if_neg (by decide)]
  simp

end Verif
