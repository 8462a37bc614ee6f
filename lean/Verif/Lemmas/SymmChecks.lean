import Verif.Lemmas.SymmLemmas

/-! Kernel checks of the assignment lists of `symmetrize_N`. -/

set_option autoImplicit false

namespace Verif

open Spec

/-! ### Checks of the assignment lists (kernel reduction over all indices) -/

section
set_option maxRecDepth 100000

theorem clean2 : Clean prog2 := by decide +kernel
theorem clean4 : Clean prog4 := by decide +kernel
theorem clean5 : Clean prog5 := by decide +kernel
theorem clean6 : Clean prog6 := by decide +kernel
theorem clean7 : Clean prog7 := by decide +kernel
theorem clean8 : Clean prog8 := by decide +kernel
theorem clean9 : Clean prog9 := by decide +kernel

theorem check2 : ∀ p r : Fin 3, ∀ b, Form.same (look prog2.reverse ((r, p), b))
    (Form.scale (if b then -1 else 1) (look prog2.reverse ((p, r), b))) = true := by decide +kernel

theorem check9 : ∀ p r : Fin 3, ∀ b, Form.same (look prog9.reverse ((r, p), b))
    (look prog9.reverse ((p, r), b)) = true := by decide +kernel

theorem check4 : ∀ p r s t : Fin 3, ∀ b, Form.same (look prog4.reverse ((r, p, t, s), b))
    (Form.scale (if b then -1 else 1) (look prog4.reverse ((p, r, s, t), b))) = true := by decide +kernel

theorem check4' : ∀ p r s t : Fin 3, ∀ b, Form.same (look prog4.reverse ((s, t, p, r), b))
    (look prog4.reverse ((p, r, s, t), b)) = true := by decide +kernel

theorem check5 : ∀ p r s t : Fin 3, ∀ b, Form.same (look prog5.reverse ((r, p, t, s), b))
    (Form.scale (if b then -1 else 1) (look prog5.reverse ((p, r, s, t), b))) = true := by decide +kernel

theorem check6 : ∀ p r s t : Fin 3, ∀ b, Form.same (look prog6.reverse ((r, p, t, s), b))
    (Form.scale (if b then -1 else 1) (look prog6.reverse ((p, r, s, t), b))) = true := by decide +kernel

theorem check6' : ∀ p r s t : Fin 3, ∀ b, Form.same (look prog6.reverse ((s, t, p, r), b))
    (look prog6.reverse ((p, r, s, t), b)) = true := by decide +kernel

theorem check6'' : ∀ p r s t : Fin 3, ∀ b, Form.same (look prog6.reverse ((p, t, s, r), b))
    (look prog6.reverse ((p, r, s, t), b)) = true := by decide +kernel

theorem check7 : ∀ p r s t : Fin 3, ∀ b, Form.same (look prog7.reverse ((r, p, s, t), b))
    (look prog7.reverse ((p, r, s, t), b)) = true := by decide +kernel

theorem check8 : ∀ p r s t : Fin 3, ∀ b,
    Form.same (look prog8.reverse ((p, r, s, t), b) ++ look prog8.reverse ((r, p, s, t), b))
      (look prog8.reverse ((s, p, r, t), b) ++ look prog8.reverse ((s, r, p, t), b)) = true := by decide +kernel

/-- The program reads only independent entries, and the imaginary parts only of those that may be complex. -/
def Reads4 (cls : SymClass) (prog : List (Asg Ix4)) : Prop :=
  ∀ p r s t : Fin 3, ∀ b, ∀ u ∈ look prog.reverse ((p, r, s, t), b),
    Indep4 cls u.2.1 ∧ (u.2.2 = true → ¬ Real4 cls u.2.1)

/-- Independent entries are kept; only the imaginary part of real ones is removed. -/
def Keeps4 (cls : SymClass) (prog : List (Asg Ix4)) : Prop :=
  ∀ p r s t : Fin 3, Indep4 cls (p, r, s, t) → Form.same (look prog.reverse ((p, r, s, t), false)) [(1, ((p, r, s, t), false))] = true ∧
    Form.same (look prog.reverse ((p, r, s, t), true)) (if Real4 cls (p, r, s, t) then [] else [(1, ((p, r, s, t), true))]) = true

instance (cls prog) : Decidable (Reads4 cls prog) := by unfold Reads4; infer_instance
instance (cls prog) : Decidable (Keeps4 cls prog) := by unfold Keeps4; infer_instance

theorem reads4 : Reads4 .twoIdentical prog4 := by decide +kernel
theorem reads5 : Reads4 .twoDifferent prog5 := by decide +kernel
theorem reads6 : Reads4 .singlet prog6 := by decide +kernel
theorem reads7 : Reads4 .qque prog7 := by decide +kernel
theorem reads8 : Reads4 .qqql prog8 := by decide +kernel
theorem keeps4 : Keeps4 .twoIdentical prog4 := by decide +kernel
theorem keeps5 : Keeps4 .twoDifferent prog5 := by decide +kernel
theorem keeps6 : Keeps4 .singlet prog6 := by decide +kernel
theorem keeps7 : Keeps4 .qque prog7 := by decide +kernel
theorem keeps8 : Keeps4 .qqql prog8 := by decide +kernel


end

end Verif
