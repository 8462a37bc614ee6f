import Verif.Model.Qcd
import Mathlib.Tactic.NormNum
import Mathlib.Tactic.Linarith

/-!
C27, C28: running parameters and their memoisation.
-/

set_option autoImplicit false
set_option linter.unusedSimpArgs false

namespace Verif

open Classical

namespace Spec

/-- A request the running is meant for: a positive scale (an `int` or `float`) and an `int` number of
flavours out of the list. -/
def Physical (flavours : List ℤ) (scale f : PyNum) : Prop :=
  ((∃ n, scale = .int n) ∨ ∃ x, scale = .float x) ∧ 0 < scale.val ∧ ∃ n ∈ flavours, f = .int n

end Spec

theorem sane_cases (scale f : PyNum) :
    ((sane scale f : Except PyErr Unit) = .ok () ∧ scale.isFloatOrInt = true ∧ 0 < scale.val ∧
      (f.isInt = true ∨ ¬ (3 ≤ f.val ∧ f.val ≤ 6))) ∨
    ((∃ w, (sane scale f : Except PyErr Unit) = .error (.valueError w)) ∧
      ¬ (scale.isFloatOrInt = true ∧ 0 < scale.val ∧ (f.isInt = true ∨ ¬ (3 ≤ f.val ∧ f.val ≤ 6)))) := by
  unfold sane
  by_cases h1 : ¬ scale.isFloatOrInt = true ∨ scale.val ≤ 0
  · right
    rw [if_pos h1]
    refine ⟨⟨_, rfl⟩, ?_⟩
    rintro ⟨h2, h3, _⟩
    rcases h1 with h1 | h1
    · exact absurd h2 h1
    · exact absurd h3 (not_lt.2 h1)
  · rw [if_neg h1]
    push Not at h1
    by_cases h2 : ¬ f.isInt = true ∧ 3 ≤ f.val ∧ f.val ≤ 6
    · right
      rw [if_pos h2]
      refine ⟨⟨_, rfl⟩, ?_⟩
      rintro ⟨_, _, h | h⟩
      · exact absurd h h2.1
      · exact absurd h2.2 h
    · left
      rw [if_neg h2]
      refine ⟨rfl, h1.1, h1.2, ?_⟩
      by_cases h3 : f.isInt = true
      · exact .inl h3
      · exact .inr fun h4 => h2 ⟨h3, h4⟩

open Spec

theorem physical_iff (fl : List ℤ) (hfl : ∀ n ∈ fl, 3 ≤ n ∧ n ≤ 6) (scale f : PyNum) :
    Physical fl scale f ↔ (scale.isFloatOrInt = true ∧ 0 < scale.val ∧
      (f.isInt = true ∨ ¬ (3 ≤ f.val ∧ f.val ≤ 6))) ∧ ∃ n ∈ fl, f.val = n := by
  have hs : ((∃ n, scale = .int n) ∨ ∃ x, scale = .float x) ↔ scale.isFloatOrInt = true := by
    cases scale <;> simp [PyNum.isFloatOrInt]
  unfold Physical
  rw [hs]
  constructor
  · rintro ⟨h1, h2, n, hn, rfl⟩
    exact ⟨⟨h1, h2, .inl rfl⟩, n, hn, rfl⟩
  · rintro ⟨⟨h1, h2, h3⟩, n, hn, hv⟩
    refine ⟨h1, h2, n, hn, ?_⟩
    have h4 : f.isInt = true := by
      rcases h3 with h3 | h3
      · exact h3
      · exfalso
        apply h3
        rw [hv]
        have := hfl n hn
        constructor
        · exact_mod_cast this.1
        · exact_mod_cast this.2
    cases f with
    | int m => simp only [PyNum.val, Int.cast_inj] at hv; rw [hv]
    | float x => simp [PyNum.isInt] at h4
    | other x => simp [PyNum.isInt] at h4

/-- `alpha_s`: answers exactly for its shortcut and for physical requests, else `ValueError`. -/
theorem alphaS_cases (rd : RunDec) (scale f : PyNum) (a : ℝ) :
    ((∃ x, (alphaSBody rd scale f a : Except PyErr ℝ) = .ok x) ∧
      ((scale.val = MZ ∧ f.val = 5) ∨ Physical [3, 4, 5, 6] scale f)) ∨
    ((∃ w, (alphaSBody rd scale f a : Except PyErr ℝ) = .error (.valueError w)) ∧
      ¬ (scale.val = MZ ∧ f.val = 5) ∧ ¬ Physical [3, 4, 5, 6] scale f) := by
  rw [physical_iff _ (by decide)]
  unfold alphaSBody
  by_cases h0 : scale.val = MZ ∧ f.val = 5
  · rw [if_pos h0]; exact .inl ⟨⟨_, rfl⟩, .inl h0⟩
  rw [if_neg h0]
  rcases sane_cases scale f with ⟨hs, h1⟩ | ⟨⟨w, hs⟩, h1⟩
  · have hb : ∀ (k : Unit → Except PyErr ℝ), ((sane scale f : Except PyErr Unit) >>= k) = k () := by
      intro k; rw [hs]; rfl
    rw [hb]
    by_cases h5 : f.val = 5
    · rw [if_pos h5]; exact .inl ⟨⟨_, rfl⟩, .inr ⟨h1, 5, by decide, by rw [h5]; norm_num⟩⟩
    rw [if_neg h5]
    by_cases h6 : f.val = 6
    · rw [if_pos h6]; exact .inl ⟨⟨_, rfl⟩, .inr ⟨h1, 6, by decide, by rw [h6]; norm_num⟩⟩
    rw [if_neg h6]
    by_cases h4 : f.val = 4
    · rw [if_pos h4]; exact .inl ⟨⟨_, rfl⟩, .inr ⟨h1, 4, by decide, by rw [h4]; norm_num⟩⟩
    rw [if_neg h4]
    by_cases h3 : f.val = 3
    · rw [if_pos h3]; exact .inl ⟨⟨_, rfl⟩, .inr ⟨h1, 3, by decide, by rw [h3]; norm_num⟩⟩
    rw [if_neg h3]
    refine .inr ⟨⟨_, rfl⟩, h0, ?_⟩
    rintro ⟨_, n, hn, hv⟩
    simp only [List.mem_cons, List.not_mem_nil, or_false] at hn
    rcases hn with rfl | rfl | rfl | rfl <;> simp_all
  · have hb : ∀ (k : Unit → Except PyErr ℝ), ((sane scale f : Except PyErr Unit) >>= k) = .error (.valueError w) := by
      intro k; rw [hs]; rfl
    rw [hb]
    exact .inr ⟨⟨_, rfl⟩, h0, fun h => h1 h.1⟩

/-- Common shape of the three masses: after the shortcut, the sanity check and the first coupling. -/
theorem alphaS_bind (rd : RunDec) (scale f : PyNum) (a : ℝ) (k : ℝ → Except PyErr ℝ) :
    (∃ x, ((alphaSBody rd scale f a : Except PyErr ℝ) >>= k) = k x) ∨
    (∃ w, ((alphaSBody rd scale f a : Except PyErr ℝ) >>= k) = .error (.valueError w)) ∧
      ¬ Physical [3, 4, 5, 6] scale f := by
  rcases alphaS_cases rd scale f a with ⟨⟨x, hx⟩, _⟩ | ⟨⟨w, hw⟩, _, h⟩
  · left; exact ⟨x, by rw [hx]; rfl⟩
  · right; exact ⟨⟨w, by rw [hw]; rfl⟩, h⟩

theorem sane_bind (scale f : PyNum) (k : Unit → Except PyErr ℝ) :
    (((sane scale f : Except PyErr Unit) >>= k) = k () ∧ (scale.isFloatOrInt = true ∧ 0 < scale.val ∧
      (f.isInt = true ∨ ¬ (3 ≤ f.val ∧ f.val ≤ 6)))) ∨
    ((∃ w, ((sane scale f : Except PyErr Unit) >>= k) = .error (.valueError w)) ∧
      ¬ (scale.isFloatOrInt = true ∧ 0 < scale.val ∧ (f.isInt = true ∨ ¬ (3 ≤ f.val ∧ f.val ≤ 6)))) := by
  rcases sane_cases scale f with ⟨hs, h1⟩ | ⟨⟨w, hs⟩, h1⟩
  · left; rw [hs]; exact ⟨rfl, h1⟩
  · right; rw [hs]; exact ⟨⟨w, rfl⟩, h1⟩

/-- `m_b` away from its shortcut: if it answers the request is physical; with a positive `mbmb` it answers
every physical request; it raises nothing but `ValueError`. -/
theorem mb_cases (rd : RunDec) (m scale f : PyNum) (a : ℝ) (h0 : ¬ (scale.val = m.val ∧ f.val = 5)) :
    ((∃ x, (mbBody rd (alphaSBody rd) m scale f a : Except PyErr ℝ) = .ok x) ∧ Physical [3, 4, 5, 6] scale f) ∨
    ((∃ w, (mbBody rd (alphaSBody rd) m scale f a : Except PyErr ℝ) = .error (.valueError w)) ∧
      (Physical [3, 4, 5, 6] m (.int 5) → ¬ Physical [3, 4, 5, 6] scale f)) := by
  unfold mbBody
  rw [if_neg h0]
  rcases sane_bind scale f _ with ⟨hs, h1⟩ | ⟨⟨w, hs⟩, h1⟩
  rotate_left
  · rw [hs]
    refine .inr ⟨⟨w, rfl⟩, fun _ hp => ?_⟩
    exact h1 ((physical_iff _ (by decide) _ _).1 hp).1
  rw [hs]
  dsimp only
  have phys : ∀ n : ℤ, n ∈ [(3 : ℤ), 4, 5, 6] → f.val = n → Physical [3, 4, 5, 6] scale f := fun n hn hv =>
    (physical_iff _ (by decide) _ _).2 ⟨h1, n, hn, hv⟩
  rcases alphaS_bind rd m (.int 5) a _ with ⟨x, hx⟩ | ⟨⟨w, hw⟩, h2⟩
  rotate_left
  · rw [hw]; exact .inr ⟨⟨w, rfl⟩, fun h => absurd h h2⟩
  rw [hx]
  by_cases h5 : f.val = 5
  · have hp := phys 5 (by decide) (by rw [h5]; norm_num)
    rw [if_pos h5]
    rcases alphaS_bind rd scale f a _ with ⟨y, hy⟩ | ⟨⟨w, hw⟩, h2⟩
    · rw [hy]; exact .inl ⟨⟨_, rfl⟩, hp⟩
    · exact absurd hp h2
  rw [if_neg h5]
  by_cases h4 : f.val = 4
  · rw [if_pos h4]; exact .inl ⟨⟨_, rfl⟩, phys 4 (by decide) (by rw [h4]; norm_num)⟩
  rw [if_neg h4]
  by_cases h3 : f.val = 3
  · rw [if_pos h3]
    rcases alphaS_bind rd (.float 1.3) (.int 4) a _ with ⟨y, hy⟩ | ⟨⟨w, hw⟩, h2⟩
    · rw [hy]; exact .inl ⟨⟨_, rfl⟩, phys 3 (by decide) (by rw [h3]; norm_num)⟩
    · exact absurd ⟨.inr ⟨1.3, rfl⟩, by simp only [PyNum.val]; norm_num, 4, by decide, rfl⟩ h2
  rw [if_neg h3]
  by_cases h6 : f.val = 6
  · rw [if_pos h6]; exact .inl ⟨⟨_, rfl⟩, phys 6 (by decide) (by rw [h6]; norm_num)⟩
  rw [if_neg h6]
  refine .inr ⟨⟨_, rfl⟩, fun _ hp => ?_⟩
  obtain ⟨_, n, hn, hv⟩ := (physical_iff _ (by decide) _ _).1 hp
  simp only [List.mem_cons, List.not_mem_nil, or_false] at hn
  rcases hn with rfl | rfl | rfl | rfl <;> simp_all

theorem mc_cases (rd : RunDec) (m scale f : PyNum) (a : ℝ) (h0 : ¬ scale.val = m.val) :
    ((∃ x, (mcBody rd (alphaSBody rd) m scale f a : Except PyErr ℝ) = .ok x) ∧ Physical [3, 4, 5] scale f) ∨
    ((∃ w, (mcBody rd (alphaSBody rd) m scale f a : Except PyErr ℝ) = .error (.valueError w)) ∧
      (Physical [3, 4, 5, 6] m (.int 4) → ¬ Physical [3, 4, 5] scale f)) := by
  unfold mcBody
  rw [if_neg h0]
  rcases sane_bind scale f _ with ⟨hs, h1⟩ | ⟨⟨w, hs⟩, h1⟩
  rotate_left
  · rw [hs]
    refine .inr ⟨⟨w, rfl⟩, fun _ hp => ?_⟩
    exact h1 ((physical_iff _ (by decide) _ _).1 hp).1
  rw [hs]
  have phys : ∀ n : ℤ, n ∈ [(3 : ℤ), 4, 5] → f.val = n → Physical [3, 4, 5] scale f := fun n hn hv =>
    (physical_iff _ (by decide) _ _).2 ⟨h1, n, hn, hv⟩
  rcases alphaS_bind rd m (.int 4) a _ with ⟨x, hx⟩ | ⟨⟨w, hw⟩, h2⟩
  rotate_left
  · rw [hw]; exact .inr ⟨⟨w, rfl⟩, fun h => absurd h h2⟩
  rw [hx]
  by_cases h4 : f.val = 4
  · have hp := phys 4 (by decide) (by rw [h4]; norm_num)
    rw [if_pos h4]
    rcases alphaS_bind rd scale f a _ with ⟨y, hy⟩ | ⟨⟨w, hw⟩, h2⟩
    · rw [hy]; exact .inl ⟨⟨_, rfl⟩, hp⟩
    · obtain ⟨p1, p2, n, hn, rfl⟩ := hp
      exact absurd ⟨p1, p2, n, by simp at hn ⊢; tauto, rfl⟩ h2
  rw [if_neg h4]
  by_cases h3 : f.val = 3
  · rw [if_pos h3]; exact .inl ⟨⟨_, rfl⟩, phys 3 (by decide) (by rw [h3]; norm_num)⟩
  rw [if_neg h3]
  by_cases h5 : f.val = 5
  · rw [if_pos h5]; exact .inl ⟨⟨_, rfl⟩, phys 5 (by decide) (by rw [h5]; norm_num)⟩
  rw [if_neg h5]
  refine .inr ⟨⟨_, rfl⟩, fun _ hp => ?_⟩
  obtain ⟨_, n, hn, hv⟩ := (physical_iff _ (by decide) _ _).1 hp
  simp only [List.mem_cons, List.not_mem_nil, or_false] at hn
  rcases hn with rfl | rfl | rfl <;> simp_all

theorem ms_cases (rd : RunDec) (m scale f : PyNum) (a : ℝ) (h0 : ¬ (scale.val = 2 ∧ f.val = 3)) :
    ((∃ x, (msBody rd (alphaSBody rd) m scale f a : Except PyErr ℝ) = .ok x) ∧ Physical [3, 4, 5] scale f) ∨
    ((∃ w, (msBody rd (alphaSBody rd) m scale f a : Except PyErr ℝ) = .error (.valueError w)) ∧
      ¬ Physical [3, 4, 5] scale f) := by
  unfold msBody
  rw [if_neg h0]
  rcases sane_bind scale f _ with ⟨hs, h1⟩ | ⟨⟨w, hs⟩, h1⟩
  rotate_left
  · rw [hs]
    refine .inr ⟨⟨w, rfl⟩, fun hp => ?_⟩
    exact h1 ((physical_iff _ (by decide) _ _).1 hp).1
  rw [hs]
  dsimp only
  have phys : ∀ n : ℤ, n ∈ [(3 : ℤ), 4, 5] → f.val = n → Physical [3, 4, 5] scale f := fun n hn hv =>
    (physical_iff _ (by decide) _ _).2 ⟨h1, n, hn, hv⟩
  rcases alphaS_bind rd (.int 2) (.int 3) a _ with ⟨x, hx⟩ | ⟨⟨w, hw⟩, h2⟩
  rotate_left
  · exact absurd ⟨.inl ⟨2, rfl⟩, by simp only [PyNum.val]; norm_num, 3, by decide, rfl⟩ h2
  rw [hx]
  by_cases h3 : f.val = 3
  · have hp := phys 3 (by decide) (by rw [h3]; norm_num)
    rw [if_pos h3]
    rcases alphaS_bind rd scale f a _ with ⟨y, hy⟩ | ⟨⟨w, hw⟩, h2⟩
    · rw [hy]; exact .inl ⟨⟨_, rfl⟩, hp⟩
    · obtain ⟨p1, p2, n, hn, rfl⟩ := hp
      exact absurd ⟨p1, p2, n, by simp at hn ⊢; tauto, rfl⟩ h2
  rw [if_neg h3]
  by_cases h4 : f.val = 4
  · rw [if_pos h4]; exact .inl ⟨⟨_, rfl⟩, phys 4 (by decide) (by rw [h4]; norm_num)⟩
  rw [if_neg h4]
  by_cases h5 : f.val = 5
  · rw [if_pos h5]
    rcases alphaS_bind rd (.float 1.3) (.int 4) a _ with ⟨y, hy⟩ | ⟨⟨w, hw⟩, h2⟩
    · rw [hy]; exact .inl ⟨⟨_, rfl⟩, phys 5 (by decide) (by rw [h5]; norm_num)⟩
    · exact absurd ⟨.inr ⟨1.3, rfl⟩, by simp only [PyNum.val]; norm_num, 4, by decide, rfl⟩ h2
  rw [if_neg h5]
  refine .inr ⟨⟨_, rfl⟩, fun hp => ?_⟩
  obtain ⟨_, n, hn, hv⟩ := (physical_iff _ (by decide) _ _).1 hp
  simp only [List.mem_cons, List.not_mem_nil, or_false] at hn
  rcases hn with rfl | rfl | rfl <;> simp_all

/-- **C27 is false.** `m_c(1.2, 1.2, 7)` answers although seven flavours are not implemented, and
`m_b(-1, -1, 5)` answers for a negative scale: the shortcuts are taken before the check. -/
theorem C27_refuted (rd : RunDec) :
    plain rd (.mc (.float 1.2) (.float 1.2) (.int 7) .dflt) = .ok 1.2 ∧
    plain rd (.mb (.int (-1)) (.int (-1)) (.int 5) .dflt) = .ok (-1) := by
  constructor
  · simp [plain, mcBody, PyNum.val, pure, Except.pure]
  · simp [plain, mbBody, PyNum.val, pure, Except.pure]

/-- The shortcut of a call applies: the requested value is the initial value. -/
def Spec.Shortcut : Call → Prop
  | .alphaS s f _ => s.val = MZ ∧ f.val = 5
  | .mb m s f _ => s.val = m.val ∧ f.val = 5
  | .mc m s _ _ => s.val = m.val
  | .ms _ s f _ => s.val = 2 ∧ f.val = 3

/-- The request of a call is physical. -/
def Spec.Call.Physical : Call → Prop
  | .alphaS s f _ => Spec.Physical [3, 4, 5, 6] s f
  | .mb _ s f _ => Spec.Physical [3, 4, 5, 6] s f
  | .mc _ s f _ => Spec.Physical [3, 4, 5] s f
  | .ms _ s f _ => Spec.Physical [3, 4, 5] s f

/-- The initial value of a call (a mass that is also a scale) is a positive `int` or `float`. -/
def Spec.Call.GoodMass : Call → Prop
  | .alphaS _ _ _ => True
  | .mb m _ _ _ => ((∃ n, m = .int n) ∨ ∃ x, m = .float x) ∧ 0 < m.val
  | .mc m _ _ _ => ((∃ n, m = .int n) ∨ ∃ x, m = .float x) ∧ 0 < m.val
  | .ms _ _ _ _ => True

/-- **C27, the part that holds.** Away from the shortcuts: an answer is given only for a physical request,
every physical request with a good initial mass is answered, and nothing but `ValueError` is ever
raised. Missing: the shortcuts do not check scale and number of flavours. -/
theorem C27_partial (rd : RunDec) (c : Call) :
    (∀ e, plain rd c = .error e → ∃ w, e = .valueError w) ∧
    (¬ Spec.Shortcut c → (∃ x, plain rd c = .ok x) → Spec.Call.Physical c) ∧
    (Spec.Call.GoodMass c → Spec.Call.Physical c → ∃ x, plain rd c = .ok x) := by
  have concl : ∀ (sc ph gm : Prop) (r : Except PyErr ℝ),
      (((∃ x, r = .ok x) ∧ (sc ∨ ph)) ∨ ((∃ w, r = .error (.valueError w)) ∧ ¬ sc ∧ (gm → ¬ ph))) →
      (∀ e, r = .error e → ∃ w, e = .valueError w) ∧ (¬ sc → (∃ x, r = .ok x) → ph) ∧ (gm → ph → ∃ x, r = .ok x) := by
    rintro sc ph gm r (⟨⟨x, rfl⟩, h⟩ | ⟨⟨w, rfl⟩, h⟩)
    · refine ⟨by simp, fun h1 _ => h.resolve_left h1, fun _ _ => ⟨x, rfl⟩⟩
    · refine ⟨by simp, by simp, fun h1 h2 => absurd h2 (h.2 h1)⟩
  cases c with
  | alphaS s f a =>
    apply concl
    rcases alphaS_cases rd s f a.val with h | ⟨h, h1, h2⟩
    · exact .inl h
    · exact .inr ⟨h, h1, fun _ => h2⟩
  | mb m s f a =>
    apply concl
    by_cases h0 : s.val = m.val ∧ f.val = 5
    · left
      refine ⟨⟨m.val, ?_⟩, .inl h0⟩
      simp [plain, mbBody, h0, pure, Except.pure]
    · rcases mb_cases rd m s f a.val h0 with ⟨h, h1⟩ | ⟨h, h1⟩
      · exact .inl ⟨h, .inr h1⟩
      · exact .inr ⟨h, h0, fun hg => h1 ⟨hg.1, hg.2, 5, by decide, rfl⟩⟩
  | mc m s f a =>
    apply concl
    by_cases h0 : s.val = m.val
    · left
      refine ⟨⟨m.val, ?_⟩, .inl h0⟩
      simp [plain, mcBody, h0, pure, Except.pure]
    · rcases mc_cases rd m s f a.val h0 with ⟨h, h1⟩ | ⟨h, h1⟩
      · exact .inl ⟨h, .inr h1⟩
      · exact .inr ⟨h, h0, fun hg => h1 ⟨hg.1, hg.2, 4, by decide, rfl⟩⟩
  | ms m s f a =>
    apply concl
    by_cases h0 : s.val = 2 ∧ f.val = 3
    · left
      refine ⟨⟨m.val, ?_⟩, .inl h0⟩
      simp [plain, msBody, h0, pure, Except.pure]
    · rcases ms_cases rd m s f a.val h0 with ⟨h, h1⟩ | ⟨h, h1⟩
      · exact .inl ⟨h, .inr h1⟩
      · exact .inr ⟨h, h0, fun _ => h1⟩

/-- A physical request away from the shortcut, and one with a wrong number of flavours. -/
example (rd : RunDec) : (∃ x, plain rd (.mb (.float 4.2) (.int 50) (.int 5) .dflt) = .ok x) ∧
    ∃ w, plain rd (.alphaS (.int 100) (.int 7) .dflt) = .error (.valueError w) := by
  constructor
  · exact (C27_partial rd _).2.2 ⟨.inr ⟨_, rfl⟩, by simp only [PyNum.val]; norm_num⟩
      ⟨.inl ⟨_, rfl⟩, by simp only [PyNum.val]; norm_num, 5, by decide, rfl⟩
  · cases h : plain rd (.alphaS (.int 100) (.int 7) .dflt) with
    | error e =>
      obtain ⟨w, rfl⟩ := (C27_partial rd _).1 e h
      exact ⟨w, rfl⟩
    | ok x =>
      exfalso
      obtain ⟨_, _, n, hn, h⟩ := (C27_partial rd _).2.1 (by simp [Spec.Shortcut, PyNum.val]) ⟨x, h⟩
      simp only [PyNum.int.injEq] at h
      subst h
      revert hn; decide

/-! ### Memoisation -/

/-- Every number of flavours is passed as an `int`, every scale and mass as an `int` or `float`. -/
def Spec.Call.Typed : Call → Prop
  | .alphaS s f _ => ((∃ n, s = .int n) ∨ ∃ x, s = .float x) ∧ ∃ n, f = .int n
  | .mb m s f _ => ((∃ n, m = .int n) ∨ ∃ x, m = .float x) ∧ ((∃ n, s = .int n) ∨ ∃ x, s = .float x) ∧ ∃ n, f = .int n
  | .mc m s f _ => ((∃ n, m = .int n) ∨ ∃ x, m = .float x) ∧ ((∃ n, s = .int n) ∨ ∃ x, s = .float x) ∧ ∃ n, f = .int n
  | .ms _ s f _ => ((∃ n, s = .int n) ∨ ∃ x, s = .float x) ∧ ∃ n, f = .int n

/-- Run a cached computation. -/
def Cached.exec {α : Type} (c : Cached α) (s : Caches) : Except PyErr α × Caches := c.run.run s

theorem exec_pure {α : Type} (a : α) (s : Caches) : Cached.exec (pure a) s = (.ok a, s) := rfl
theorem exec_throw {α : Type} (e : PyErr) (s : Caches) : Cached.exec (throw e : Cached α) s = (.error e, s) := rfl
theorem exec_bind {α β : Type} (c : Cached α) (k : α → Cached β) (s : Caches) :
    Cached.exec (c >>= k) s = match Cached.exec c s with
      | (.ok a, s') => Cached.exec (k a) s'
      | (.error e, s') => (.error e, s') := by
  unfold Cached.exec
  simp only [ExceptT.run_bind, StateT.run_bind]
  generalize (StateT.run (ExceptT.run c) s) = r
  obtain ⟨a | a, s'⟩ := r <;> rfl

theorem exec_lru (k : Key) (body : Cached ℝ) (s : Caches) :
    Cached.exec (lru k body) s = match (s k.fn).find? (fun p => p.1 = k) with
      | some p => (.ok p.2, Function.update s k.fn (p :: (s k.fn).filter fun q => q.1 ≠ k))
      | none => match Cached.exec body s with
        | (.ok v, s') => (.ok v, Function.update s' k.fn (((k, v) :: s' k.fn).take 32))
        | (.error e, s') => (.error e, s') := by
  unfold lru
  rw [exec_bind]
  have hg : Cached.exec (get : Cached Caches) s = (.ok s, s) := rfl
  rw [hg]
  dsimp only
  cases h : (s k.fn).find? (fun p => decide (p.1 = k)) with
  | some p => dsimp only; rw [exec_bind]; rfl
  | none =>
    dsimp only
    rw [exec_bind]
    generalize Cached.exec body s = r
    obtain ⟨a | a, s'⟩ := r
    · rfl
    · dsimp only; rw [exec_bind]; rfl

/-- The computation `c` does not look at the caches and answers `p`. -/
def Lift {α : Type} (p : Except PyErr α) (c : Cached α) : Prop := ∀ s, Cached.exec c s = (p, s)

theorem Lift.bind {α β : Type} {p : Except PyErr α} {c : Cached α} {q : α → Except PyErr β}
    {k : α → Cached β} (h : Lift p c) (hk : ∀ a, Lift (q a) (k a)) : Lift (p >>= q) (c >>= k) := by
  intro s
  rw [exec_bind, h s]
  cases p with
  | error e => rfl
  | ok a => exact hk a s

theorem Lift.ite {α : Type} {P : Prop} [Decidable P] {p q : Except PyErr α} {c d : Cached α}
    (h : Lift p c) (h' : Lift q d) : Lift (if P then p else q) (if P then c else d) := by
  split <;> assumption

theorem lift_sane (scale f : PyNum) : Lift (sane scale f) (sane scale f) := by
  intro s
  unfold sane
  by_cases h1 : ¬ scale.isFloatOrInt = true ∨ scale.val ≤ 0
  · rw [if_pos h1, if_pos h1]; rfl
  · rw [if_neg h1, if_neg h1]
    by_cases h2 : ¬ f.isInt = true ∧ 3 ≤ f.val ∧ f.val ≤ 6
    · rw [if_pos h2, if_pos h2]; rfl
    · rw [if_neg h2, if_neg h2]; rfl

theorem lift_alphaS (rd : RunDec) (scale f : PyNum) (a : ℝ) :
    Lift (alphaSBody rd scale f a) (alphaSBody rd scale f a) := by
  unfold alphaSBody
  refine Lift.ite (fun _ => rfl) ?_
  refine Lift.bind (lift_sane _ _) fun _ => ?_
  exact Lift.ite (fun _ => rfl) (Lift.ite (fun _ => rfl) (Lift.ite (fun _ => rfl) (Lift.ite (fun _ => rfl) fun _ => rfl)))

/-- **C28 is false.** After `alpha_s(100, 5)` the call `alpha_s(100, 5.0)` is answered from the cache, while
without history it raises `ValueError`. -/
theorem C28_refuted (rd : RunDec) :
    (∃ w, answerAfter rd [] (.alphaS (.int 100) (.float 5) .dflt) = .error (.valueError w)) ∧
    (∃ x, answerAfter rd [.alphaS (.int 100) (.int 5) .dflt] (.alphaS (.int 100) (.float 5) .dflt) = .ok x) := by
  have hbad : ∃ w, (alphaSBody rd (.int 100) (.float 5) (Opt.val .dflt) : Except PyErr ℝ) = .error (.valueError w) := by
    rcases alphaS_cases rd (.int 100) (.float 5) (Opt.val .dflt) with ⟨_, h | h⟩ | ⟨h, _⟩
    · simp [PyNum.val, MZ] at h; norm_num at h
    · obtain ⟨_, _, n, _, h⟩ := h; simp at h
    · exact h
  have hgood : ∃ x, (alphaSBody rd (.int 100) (.int 5) (Opt.val .dflt) : Except PyErr ℝ) = .ok x := by
    rcases alphaS_cases rd (.int 100) (.int 5) (Opt.val .dflt) with ⟨h, _⟩ | ⟨_, _, h⟩
    · exact h
    · exact absurd ⟨.inl ⟨_, rfl⟩, by simp only [PyNum.val]; norm_num, 5, by decide, rfl⟩ h
  have hk : (Call.alphaS (.int 100) (.float 5) .dflt).key = (Call.alphaS (.int 100) (.int 5) .dflt).key := by
    simp [Call.key, PyNum.val]
  constructor
  · obtain ⟨w, hw⟩ := hbad
    refine ⟨w, ?_⟩
    change (Cached.exec (cached rd (.alphaS (.int 100) (.float 5) .dflt)) fun _ => []).1 = _
    unfold cached cachedAlphaS
    rw [exec_lru, lift_alphaS, hw]
    rfl
  · obtain ⟨x, hx⟩ := hgood
    refine ⟨x, ?_⟩
    change (Cached.exec (cached rd (.alphaS (.int 100) (.float 5) .dflt))
      (Cached.exec (cached rd (.alphaS (.int 100) (.int 5) .dflt)) fun _ => []).2).1 = _
    unfold cached cachedAlphaS
    rw [exec_lru _ _ (fun _ => []), lift_alphaS, hx, exec_lru, hk]
    simp [Call.key, Function.update_self]

/-- Cached entries are right for every well-typed call with that key. -/
def Inv (rd : RunDec) (s : Caches) : Prop :=
  ∀ fn, ∀ p ∈ s fn, ∀ c, Spec.Call.Typed c → c.key = p.1 → plain rd c = .ok p.2

/-- The cached computation `c` gives the answer `p` and keeps the invariant. -/
def Sim {α : Type} (rd : RunDec) (p : Except PyErr α) (c : Cached α) : Prop :=
  ∀ s, Inv rd s → (Cached.exec c s).1 = p ∧ Inv rd (Cached.exec c s).2

theorem Sim.pure {α : Type} (rd : RunDec) (a : α) : Sim rd (.ok a) (Pure.pure a : Cached α) :=
  fun _ hs => ⟨rfl, hs⟩

theorem Sim.throw {α : Type} (rd : RunDec) (e : PyErr) :
    Sim rd (.error e : Except PyErr α) (MonadExcept.throw e : Cached α) :=
  fun _ hs => ⟨rfl, hs⟩

theorem Sim.bind {α β : Type} {rd : RunDec} {p : Except PyErr α} {c : Cached α} {q : α → Except PyErr β}
    {k : α → Cached β} (h : Sim rd p c) (hk : ∀ a, Sim rd (q a) (k a)) : Sim rd (p >>= q) (c >>= k) := by
  intro s hs
  obtain ⟨h1, h2⟩ := h s hs
  rw [exec_bind]
  generalize Cached.exec c s = r at h1 h2
  obtain ⟨a | a, s'⟩ := r
  · dsimp only at *; subst h1; exact ⟨rfl, h2⟩
  · dsimp only at *; subst h1; exact hk a s' h2

theorem Sim.ite {α : Type} {rd : RunDec} {P : Prop} [Decidable P] {p q : Except PyErr α} {c d : Cached α}
    (h : Sim rd p c) (h' : Sim rd q d) : Sim rd (if P then p else q) (if P then c else d) := by
  split <;> assumption

theorem Sim.lru {rd : RunDec} (c : Call) (hc : Spec.Call.Typed c) {body : Cached ℝ}
    (hkey : ∀ c', Spec.Call.Typed c' → c'.key = c.key → plain rd c' = plain rd c)
    (h : Sim rd (plain rd c) body) : Sim rd (plain rd c) (Verif.lru c.key body) := by
  intro s hs
  rw [exec_lru]
  cases hf : (s c.key.fn).find? (fun p => decide (p.1 = c.key)) with
  | some p =>
    dsimp only
    have hm := List.mem_of_find?_eq_some hf
    have hk : p.1 = c.key := by simpa using List.find?_some hf
    refine ⟨(hs _ p hm c hc hk.symm).symm, ?_⟩
    intro fn q hq
    by_cases hfn : fn = c.key.fn
    · subst hfn
      rw [Function.update_self] at hq
      rcases List.mem_cons.1 hq with rfl | hq
      · exact hs _ q hm
      · exact hs _ q (List.mem_filter.1 hq).1
    · rw [Function.update_of_ne hfn] at hq
      exact hs _ q hq
  | none =>
    obtain ⟨h1, h2⟩ := h s hs
    dsimp only
    generalize Cached.exec body s = r at h1 h2
    obtain ⟨a | a, s'⟩ := r
    · exact ⟨h1, h2⟩
    · dsimp only at *
      refine ⟨h1, ?_⟩
      intro fn q hq
      by_cases hfn : fn = c.key.fn
      · subst hfn
        rw [Function.update_self] at hq
        rcases List.mem_cons.1 (List.mem_of_mem_take hq) with rfl | hq
        · intro c' hc' hk'
          rw [hkey c' hc' hk', h1]
        · exact h2 _ q hq
      · rw [Function.update_of_ne hfn] at hq
        exact h2 _ q hq

theorem Lift.sim {α : Type} {rd : RunDec} {p : Except PyErr α} {c : Cached α} (h : Lift p c) : Sim rd p c := by
  intro s hs
  rw [h s]
  exact ⟨rfl, hs⟩

theorem isFloatOrInt_iff (s : PyNum) : ((∃ n, s = .int n) ∨ ∃ x, s = .float x) ↔ s.isFloatOrInt = true := by
  cases s <;> simp [PyNum.isFloatOrInt]

theorem int_of_val {n m : ℤ} (h : (PyNum.int n).val = (PyNum.int m).val) : n = m := by
  simpa [PyNum.val] using h

theorem alphaS_congr {M : Type → Type} [Monad M] [MonadExceptOf PyErr M] (rd : RunDec) {s s' f : PyNum} (a : ℝ)
    (h : s.val = s'.val) (hs : s.isFloatOrInt = true) (hs' : s'.isFloatOrInt = true) :
    (alphaSBody rd s f a : M ℝ) = alphaSBody rd s' f a := by
  unfold alphaSBody sane
  rw [h, hs, hs']

theorem opt_val {a a' : Opt} {f : ℕ} {x y : List ℝ} (hl : x.length = y.length)
    (h : (match a with
      | .dflt => (⟨f, x, none⟩ : Key)
      | .pos a => ⟨f, x ++ [a.val], none⟩
      | .kw a => ⟨f, x, some a.val⟩) = match a' with
      | .dflt => (⟨f, y, none⟩ : Key)
      | .pos a => ⟨f, y ++ [a.val], none⟩
      | .kw a => ⟨f, y, some a.val⟩) : x = y ∧ a.val = a'.val := by
  cases a <;> cases a' <;> simp only [Key.mk.injEq, true_and, and_true, reduceCtorEq, and_false, Option.some.injEq] at h
  · exact ⟨h, rfl⟩
  · exact absurd (congrArg List.length h) (by simp [hl])
  · exact absurd (congrArg List.length h) (by simp [hl])
  · obtain ⟨h1, h2⟩ := List.append_inj' h rfl
    simp only [List.cons.injEq, and_true] at h2
    exact ⟨h1, h2⟩
  · exact ⟨h.1, h.2⟩

/-- Without cache, two well-typed calls with the same cache key get the same answer. -/
theorem plain_key (rd : RunDec) (c c' : Call) (hc : Spec.Call.Typed c) (hc' : Spec.Call.Typed c')
    (h : c'.key = c.key) : plain rd c' = plain rd c := by
  cases c with
  | alphaS s f a =>
    obtain ⟨hs, n, rfl⟩ := hc
    cases c' with
    | alphaS s' f' a' =>
      obtain ⟨hs', n', rfl⟩ := hc'
      rw [isFloatOrInt_iff] at hs hs'
      have h2 : [s'.val, (PyNum.int n').val] = [s.val, (PyNum.int n).val] ∧ a'.val = a.val :=
        opt_val (f := 0) rfl (by cases a <;> cases a' <;> simp_all [Call.key])
      simp only [List.cons.injEq, and_true] at h2
      obtain ⟨⟨h3, h4⟩, h5⟩ := h2
      obtain rfl := int_of_val h4
      unfold plain
      dsimp only
      rw [h5]
      exact alphaS_congr rd _ h3 hs' hs
    | mb m' s' f' a' => cases a <;> cases a' <;> simp [Call.key] at h
    | mc m' s' f' a' => cases a <;> cases a' <;> simp [Call.key] at h
    | ms m' s' f' a' => cases a <;> cases a' <;> simp [Call.key] at h
  | mb m s f a =>
    obtain ⟨hm, hs, n, rfl⟩ := hc
    cases c' with
    | mb m' s' f' a' =>
      obtain ⟨hm', hs', n', rfl⟩ := hc'
      rw [isFloatOrInt_iff] at hs hs' hm hm'
      have h2 : [m'.val, s'.val, (PyNum.int n').val] = [m.val, s.val, (PyNum.int n).val] ∧ a'.val = a.val :=
        opt_val (f := 1) rfl (by cases a <;> cases a' <;> simp_all [Call.key])
      simp only [List.cons.injEq, and_true] at h2
      obtain ⟨⟨h1, h3, h4⟩, h5⟩ := h2
      obtain rfl := int_of_val h4
      unfold plain
      dsimp only
      unfold mbBody sane
      rw [h5, h1, h3, hs, hs', alphaS_congr rd _ h3 hs' hs, alphaS_congr rd _ h1 hm' hm]
    | alphaS s' f' a' => cases a <;> cases a' <;> simp [Call.key] at h
    | mc m' s' f' a' => cases a <;> cases a' <;> simp [Call.key] at h
    | ms m' s' f' a' => cases a <;> cases a' <;> simp [Call.key] at h
  | mc m s f a =>
    obtain ⟨hm, hs, n, rfl⟩ := hc
    cases c' with
    | mc m' s' f' a' =>
      obtain ⟨hm', hs', n', rfl⟩ := hc'
      rw [isFloatOrInt_iff] at hs hs' hm hm'
      have h2 : [m'.val, s'.val, (PyNum.int n').val] = [m.val, s.val, (PyNum.int n).val] ∧ a'.val = a.val :=
        opt_val (f := 2) rfl (by cases a <;> cases a' <;> simp_all [Call.key])
      simp only [List.cons.injEq, and_true] at h2
      obtain ⟨⟨h1, h3, h4⟩, h5⟩ := h2
      obtain rfl := int_of_val h4
      unfold plain
      dsimp only
      unfold mcBody sane
      rw [h5, h1, h3, hs, hs', alphaS_congr rd _ h3 hs' hs, alphaS_congr rd _ h1 hm' hm]
    | alphaS s' f' a' => cases a <;> cases a' <;> simp [Call.key] at h
    | mb m' s' f' a' => cases a <;> cases a' <;> simp [Call.key] at h
    | ms m' s' f' a' => cases a <;> cases a' <;> simp [Call.key] at h
  | ms m s f a =>
    obtain ⟨hs, n, rfl⟩ := hc
    cases c' with
    | ms m' s' f' a' =>
      obtain ⟨hs', n', rfl⟩ := hc'
      rw [isFloatOrInt_iff] at hs hs'
      have h2 : [m'.val, s'.val, (PyNum.int n').val] = [m.val, s.val, (PyNum.int n).val] ∧ a'.val = a.val :=
        opt_val (f := 3) rfl (by cases a <;> cases a' <;> simp_all [Call.key])
      simp only [List.cons.injEq, and_true] at h2
      obtain ⟨⟨h1, h3, h4⟩, h5⟩ := h2
      obtain rfl := int_of_val h4
      unfold plain
      dsimp only
      unfold msBody sane
      rw [h5, h1, h3, hs, hs', alphaS_congr rd _ h3 hs' hs]
    | alphaS s' f' a' => cases a <;> cases a' <;> simp [Call.key] at h
    | mb m' s' f' a' => cases a <;> cases a' <;> simp [Call.key] at h
    | mc m' s' f' a' => cases a <;> cases a' <;> simp [Call.key] at h

theorem sim_cachedAlphaS (rd : RunDec) (s f : PyNum) (a : Opt) (hc : Spec.Call.Typed (.alphaS s f a)) :
    Sim rd (alphaSBody rd s f a.val) (cachedAlphaS rd s f a) :=
  Sim.lru (.alphaS s f a) hc (fun c' hc' h => plain_key rd _ c' hc hc' h) (lift_alphaS rd s f a.val).sim

/-- Every memoised function, called with well-typed arguments, answers like the plain one. -/
theorem sim_cached (rd : RunDec) (c : Call) (hc : Spec.Call.Typed c) : Sim rd (plain rd c) (cached rd c) := by
  have hA : ∀ (s : PyNum) (n : ℤ) (a : ℝ), ((∃ n, s = .int n) ∨ ∃ x, s = .float x) →
      Sim rd (alphaSBody rd s (.int n) a) (cachedAlphaS rd s (.int n) (.kw (.float a))) :=
    fun s n a hs => sim_cachedAlphaS rd s (.int n) (.kw (.float a)) ⟨hs, n, rfl⟩
  cases c with
  | alphaS s f a => exact sim_cachedAlphaS rd s f a hc
  | mb m s f a =>
    refine Sim.lru (.mb m s f a) hc (fun c' hc' h => plain_key rd _ c' hc hc' h) ?_
    obtain ⟨hm, hs, n, rfl⟩ := hc
    unfold plain mbBody
    refine Sim.ite (Sim.pure _ _) (Sim.bind (lift_sane _ _).sim fun _ => Sim.bind (hA _ _ _ hm) fun _ => ?_)
    refine Sim.ite (Sim.bind (hA _ _ _ hs) fun _ => Sim.pure _ _) (Sim.ite (Sim.pure _ _) (Sim.ite ?_ ?_))
    · exact Sim.bind (hA _ _ _ (.inr ⟨_, rfl⟩)) fun _ => Sim.pure _ _
    · exact Sim.ite (Sim.pure _ _) (Sim.throw _ _)
  | mc m s f a =>
    refine Sim.lru (.mc m s f a) hc (fun c' hc' h => plain_key rd _ c' hc hc' h) ?_
    obtain ⟨hm, hs, n, rfl⟩ := hc
    unfold plain mcBody
    refine Sim.ite (Sim.pure _ _) (Sim.bind (lift_sane _ _).sim fun _ => Sim.bind (hA _ _ _ hm) fun _ => ?_)
    exact Sim.ite (Sim.bind (hA _ _ _ hs) fun _ => Sim.pure _ _) (Sim.ite (Sim.pure _ _) (Sim.ite (Sim.pure _ _)
      (Sim.throw _ _)))
  | ms m s f a =>
    refine Sim.lru (.ms m s f a) hc (fun c' hc' h => plain_key rd _ c' hc hc' h) ?_
    obtain ⟨hs, n, rfl⟩ := hc
    unfold plain msBody
    refine Sim.ite (Sim.pure _ _) (Sim.bind (lift_sane _ _).sim fun _ => Sim.bind (hA _ _ _ (.inl ⟨_, rfl⟩)) fun _ => ?_)
    refine Sim.ite (Sim.bind (hA _ _ _ hs) fun _ => Sim.pure _ _) (Sim.ite (Sim.pure _ _) (Sim.ite ?_ (Sim.throw _ _)))
    exact Sim.bind (hA _ _ _ (.inr ⟨_, rfl⟩)) fun _ => Sim.pure _ _

/-- **C28, the part that holds.** If all numbers of flavours are passed as `int` and all scales and masses as
`int` or `float`, the answer to every call is the answer of the plain function, whatever was called
before, including evictions and calls that raised. Missing: numbers of flavours of other types. -/
theorem C28_partial (rd : RunDec) (h : List Call) (c : Call) (hh : ∀ c' ∈ h, Spec.Call.Typed c')
    (hc : Spec.Call.Typed c) : answerAfter rd h c = plain rd c := by
  have inv : ∀ (h : List Call) (s : Caches), Inv rd s → (∀ c' ∈ h, Spec.Call.Typed c') → Inv rd (runCalls rd s h) := by
    intro h
    induction h with
    | nil => intro s hs _; exact hs
    | cons c' h ih =>
      intro s hs hh
      exact ih _ (sim_cached rd c' (hh c' (by simp)) s hs).2 fun c'' hc'' => hh c'' (by simp [hc''])
  exact (sim_cached rd c hc _ (inv h _ (by intro fn p hp; simp at hp) hh)).1

/-- A history longer than the cache, with calls that raise. -/
example (rd : RunDec) : answerAfter rd ((List.range 100).map fun n => .mb (.float 4.2) (.int n) (.int (n % 9)) .dflt)
    (.ms (.float 0.1) (.float 2.5) (.int 4) (.kw (.float 0.12))) =
    plain rd (.ms (.float 0.1) (.float 2.5) (.int 4) (.kw (.float 0.12))) := by
  apply C28_partial
  · intro c' hc'
    obtain ⟨n, _, rfl⟩ := List.mem_map.1 hc'
    exact ⟨.inr ⟨_, rfl⟩, .inl ⟨_, rfl⟩, _, rfl⟩
  · exact ⟨.inr ⟨_, rfl⟩, _, rfl⟩

end Verif
