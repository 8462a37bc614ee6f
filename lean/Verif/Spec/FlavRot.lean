import Verif.Spec.MatchLag

/-! Rotations of the fermion fields in generation space. -/

set_option autoImplicit false

namespace Verif.Spec

/-- The multiplet to which a fermion belongs. -/
def multiplet : Chir → Kind → Option Fld
  | .L, .u => some .q
  | .L, .d => some .q
  | .L, .e => some .l
  | .L, .nu => some .l
  | .R, .u => some .u
  | .R, .d => some .d
  | .R, .e => some .e
  | .R, .nu => none

/-- One matrix for each chirality and kind of fermion. -/
abbrev FieldRot := Chir → Kind → Matrix (Fin 3) (Fin 3) ℂ

/-- The rotation of the fermions for a rotation of the multiplets. -/
def fieldRot (U : Fld → Matrix (Fin 3) (Fin 3) ℂ) : FieldRot := fun A k => (multiplet A k).elim 1 U

/-- Chirality of an unbarred field: the first two components of a spinor are left-handed. -/
def Leg.chir (p : Leg) : Chir := if p.spin.val < 2 then .L else .R

/-- Chirality of a barred field; the bar exchanges the two halves of a spinor. -/
def Leg.chirBar (p : Leg) : Chir := if 2 ≤ p.spin.val then .L else .R

/-- A Lagrangian after the rotation `psi -> M psi` of all fields. -/
noncomputable def Four.rot (M : FieldRot) (T : Four) : Four := fun p q r s => ∑ a, ∑ b, ∑ c, ∑ d,
  starRingEnd ℂ (M p.chirBar p.kind a p.gen) * M q.chir q.kind b q.gen *
    starRingEnd ℂ (M r.chirBar r.kind c r.gen) * M s.chir s.kind d s.gen *
    T { p with gen := a } { q with gen := b } { r with gen := c } { s with gen := d }

/-- Rotation of the left-handed up quarks alone. -/
noncomputable def rotUpL (W : Matrix (Fin 3) (Fin 3) ℂ) : FieldRot := fun A k => if A = .L ∧ k = .u then W else 1

/-- The coefficients `S'` are the coefficients `S` after a rotation of the multiplets. -/
structure Rotated (U : Fld → Matrix (Fin 3) (Fin 3) ℂ) (S S' : JSrc → ℂ) : Prop where
  zero : ∀ k, IsOp k .boson → S' (k, []) = S (k, [])
  two : ∀ k x y, IsOp k (.two x y) → (fun i : Fin 3 × Fin 3 => S' (k, [i.1, i.2])) = rot2 (x.mat U) (y.mat U) fun i => S (k, [i.1, i.2])
  four : ∀ k x y z w, IsOp k (.four x y z w) → tens S' k = rot4 (x.mat U) (y.mat U) (z.mat U) (w.mat U) (tens S k)

end Verif.Spec
