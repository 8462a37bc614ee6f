import Verif.Lemmas.MatchEW
import Verif.Spec.Match

/-! The rotation of the down quarks as a rotation of flavour indices, and its action on the matching conditions. -/

set_option autoImplicit false

namespace Verif

open Spec

/-! ### `rotate_down` as a rotation of indices -/

/-- How a flavour index is rotated: not at all, with `V`, with the complex conjugate of `V`. -/
inductive Mark where
  | one | v | vc
  deriving DecidableEq, Repr

/-- The matrix. -/
noncomputable def Mark.mat (V : M3) : Mark → M3
  | .one => 1
  | .v => V
  | .vc => conj V

/-- The mark of an index of a WET coefficient. -/
def markOf (s : WSlot) : Mark :=
  if s.fld = .d ∧ s.left then (if s.bar then .vc else .v) else .one

theorem markOf_mat (V : M3) (s : WSlot) : (markOf s).mat V = s.mat V := by
  unfold markOf WSlot.mat
  split_ifs <;> rfl

/-- The marks used by the code. -/
def codeMarks (k : String) : Mark × Mark × Mark × Mark :=
  if k ∈ ["VddLL"] then (.vc, .v, .vc, .v)
  else if k ∈ ["V1udLL", "V8udLL", "VedLL", "VnudLL"] then (.one, .one, .vc, .v)
  else if k ∈ ["V1ddLR", "V1duLR", "V8ddLR", "V8duLR", "VdeLR"] then (.vc, .v, .one, .one)
  else if k ∈ ["S1ddRR"] then (.vc, .one, .vc, .one)
  else if k ∈ ["V1udduLR", "V8udduLR"] then (.one, .v, .one, .one)
  else if k ∈ ["VnueduLL", "SedRR", "TedRR", "SnueduRR", "TnueduRR", "S1udRR", "S8udRR", "S1udduRR", "S8udduRR"] then
    (.one, .one, .vc, .one)
  else if k ∈ ["SedRL"] then (.one, .one, .one, .v)
  else (.one, .one, .one, .one)

theorem one_sum (f : Fin 3 → ℂ) (a : Fin 3) : ∑ p, (1 : M3) p a * f p = f a := by
  simp [Matrix.one_apply]

theorem rotateRule_eq (V : M3) (k : String) (T : Ix4 → ℂ) : rotateRule V k T =
    rot4 ((codeMarks k).1.mat V) ((codeMarks k).2.1.mat V) ((codeMarks k).2.2.1.mat V) ((codeMarks k).2.2.2.mat V) T := by
  unfold rotateRule codeMarks
  split_ifs <;> (try exact (rot4_one T).symm) <;> funext ⟨p, r, s, t⟩ <;> simp only [Mark.mat, rot4] <;>
    simp [Matrix.one_apply]

/-! ### The rotation of each coefficient -/

theorem rotW_four (V : M3) (a b c d : WSlot) (f : List (Fin 3) → ℂ) (p r s t : Fin 3) :
    rotW V [a, b, c, d] f [p, r, s, t] =
      rot4 (a.mat V) (b.mat V) (c.mat V) (d.mat V) (fun i => f [i.1, i.2.1, i.2.2.1, i.2.2.2]) (p, r, s, t) := by
  simp only [rotW, rot4, Finset.mul_sum, mul_assoc]

theorem rotW_two_one (V : M3) (a b : WSlot) (ha : markOf a = .one) (hb : markOf b = .one) (f : List (Fin 3) → ℂ)
    (p r : Fin 3) : rotW V [a, b] f [p, r] = f [p, r] := by
  simp only [rotW, ← markOf_mat, ha, hb, Mark.mat, one_sum]

theorem length_four {α : Type} {l : List α} (h : l.length = 4) : ∃ a b c d, l = [a, b, c, d] := by
  rcases l with _ | ⟨a, _ | ⟨b, _ | ⟨c, _ | ⟨d, _ | ⟨e, l⟩⟩⟩⟩⟩ <;> simp_all

/-- Operators with a left-handed down quark whose matching condition is non-zero and which `rotate_down` leaves alone. -/
def notRotated : List String := ["dgamma", "dG", "SuddLL", "SduuLL", "SduuLR", "SdudRL"]

/-- The entry of a coefficient is rotated as its field content demands. -/
def Rotates1 (k : String) (X : Arr) : Prop :=
  k ∉ notRotated → ∀ ss, IsWet k ss → ss ≠ [] → ∀ V i, i.length = ss.length →
    i ∈ X.idxs ∧ (rotEntry V k X).ent i = rotW V ss X.ent i

theorem mem_ix2s (i : Ix2) : i ∈ ix2s := by
  have : ∀ p r : Fin 3, (p, r) ∈ ix2s := by decide +kernel
  exact this i.1 i.2

theorem mem_ix4s (i : Ix4) : i ∈ ix4s := by
  have : ∀ p r s t : Fin 3, (p, r, s, t) ∈ ix4s := by decide +kernel
  exact this i.1 i.2.1 i.2.2.1 i.2.2.2

theorem rotates_mat {k : String} (m : Ix2 → ℂ)
    (h : k ∈ notRotated ∨ ∀ p ∈ wetTable, k ∈ p.2 → p.1.map markOf = [.one, .one]) : Rotates1 k (.mat m) := by
  rintro hn ss ⟨ks, h1, h2⟩ - V i hi
  have h := h.resolve_left hn _ h1 h2
  obtain ⟨a, b, rfl⟩ := List.length_eq_two.1 (show ss.length = 2 by simpa using congrArg List.length h)
  obtain ⟨p, r, rfl⟩ := List.length_eq_two.1 hi
  refine ⟨List.mem_map.2 ⟨(p, r), mem_ix2s _, rfl⟩, ?_⟩
  · simp only [List.map_cons, List.map_nil, List.cons.injEq, and_true] at h
    exact (rotW_two_one V a b h.1 h.2 _ p r).symm

theorem rotates_ten {k : String} (T : Ix4 → ℂ) (h : k ∈ notRotated ∨ ∀ p ∈ wetTable, k ∈ p.2 →
    p.1.map markOf = [(codeMarks k).1, (codeMarks k).2.1, (codeMarks k).2.2.1, (codeMarks k).2.2.2]) :
    Rotates1 k (.ten T) := by
  rintro hn ss ⟨ks, h1, h2⟩ - V i hi
  have h := h.resolve_left hn _ h1 h2
  obtain ⟨a, b, c, d, rfl⟩ := length_four (show ss.length = 4 by simpa using congrArg List.length h)
  obtain ⟨p, r, s, t, rfl⟩ := length_four hi
  refine ⟨List.mem_map.2 ⟨(p, r, s, t), mem_ix4s _, rfl⟩, ?_⟩
  · simp only [List.map_cons, List.map_nil, List.cons.injEq, and_true] at h
    rw [rotW_four]
    simp only [rotEntry, Arr.ent, rotateRule_eq, ← h.1, ← h.2.1, ← h.2.2.1, ← h.2.2.2, markOf_mat]

theorem rotates_zero {k : String} (h : ∀ p ∈ wetTable, k ∈ p.2 → p.1.length = 4) : Rotates1 k (.ten 0) := by
  rintro - ss ⟨ks, h1, h2⟩ - V i hi
  have h := h _ h1 h2
  obtain ⟨a, b, c, d, rfl⟩ := length_four (show ss.length = 4 from h)
  obtain ⟨p, r, s, t, rfl⟩ := length_four hi
  refine ⟨List.mem_map.2 ⟨(p, r, s, t), mem_ix4s _, rfl⟩, ?_⟩
  · rw [rotW_four]
    simp only [rotEntry, Arr.ent, rotateRule_eq]
    simp [rot4]

theorem rotates_scalar {k : String} (X : Arr) (h : ∀ p ∈ wetTable, k ∈ p.2 → p.1 = []) : Rotates1 k X := by
  rintro - ss ⟨ks, h1, h2⟩ hne
  exact absurd (h _ h1 h2) hne

/-- Every matching condition. -/
theorem rules_rotate : ∀ r ∈ matchRules, ∀ S S0 w w0, Rotates1 r.1 ((r.2 S w).sub (r.2 S0 w0)) := by
  unfold matchRules rulesDipole rulesLL rulesRR rulesLR rulesScalar rulesBL
  simp only [List.cons_append, List.nil_append, List.forall_mem_cons]
  repeat' apply And.intro
  on_goal 97 => simp
  all_goals intro S S0 w w0
  all_goals first
    | exact rotates_mat _ (by decide +kernel)
    | exact rotates_ten _ (by decide +kernel)
    | (simp only [Arr.sub, sub_self]; exact rotates_zero (by decide +kernel))
    | exact rotates_scalar _ (by decide +kernel)

theorem rotW_congr (V : M3) : ∀ (ss : List WSlot) {f g : List (Fin 3) → ℂ},
    (∀ j : List (Fin 3), j.length = ss.length → f j = g j) → ∀ i : List (Fin 3), i.length = ss.length → rotW V ss f i = rotW V ss g i
  | [], _, _, h, i, hi => h i hi
  | s :: ss, f, g, h, i :: is, hi => by
    simp only [rotW]
    refine Finset.sum_congr rfl fun p _ => ?_
    rw [rotW_congr V ss (fun j hj => h (p :: j) (by simp [hj])) is (by simpa using hi)]
  | s :: ss, _, _, _, [], hi => by simp at hi

theorem rotEntry_one (k : String) (X : Arr) : rotEntry 1 k X = X := by
  have hm : ∀ m : Mark, m.mat 1 = 1 := by
    intro m
    cases m with
    | one => rfl
    | v => rfl
    | vc => ext i j; by_cases h : i = j <;> simp [Mark.mat, conj, Matrix.one_apply, h]
  cases X with
  | ten T => simp only [rotEntry, rotateRule_eq, hm, rot4_one]
  | _ => rfl

/-- `rotate_down` leaves these alone. -/
theorem rotEntry_notRotated {k : String} (h : k ∈ notRotated) (V : M3) (X : Arr) : rotEntry V k X = X := by
  have hm : ∀ k ∈ notRotated, codeMarks k = (.one, .one, .one, .one) := by decide +kernel
  cases X with
  | ten T => simp only [rotEntry, rotateRule_eq, hm k h, Mark.mat, rot4_one]
  | _ => rfl

/-- Rules other than those for the triple-gluon coefficients do not read these. -/
theorem rules_noG : ∀ r ∈ matchRules, r.1 ∉ ["G", "Gtilde"] → ∀ (S : Src) (g g' : Arr) (w : EW),
    r.2 ⟨S.mt, S.tn, S.phiWB, g, g'⟩ w = r.2 S w := by
  unfold matchRules rulesDipole rulesLL rulesRR rulesLR rulesScalar rulesBL
  simp only [List.cons_append, List.nil_append, List.forall_mem_cons]
  repeat' apply And.intro
  on_goal 97 => simp
  all_goals first
    | exact fun hk => absurd hk (by decide +kernel)
    | exact fun _ _ _ _ _ => trivial
    | exact fun _ _ _ _ _ => rfl

end Verif
