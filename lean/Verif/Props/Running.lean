import Verif.Props.Qcd

/-!
C62: the running parameters follow one trajectory through the flavour thresholds.

The specification is a trajectory: a state (number of flavours, scale, strong coupling, mass) that is run at fixed number of
flavours to the next threshold, decoupled there, and finally run to the requested scale. RunDec is assumed to
do this exactly for one threshold (`Ideal`): its functions run, match, and run, the running being a flow and the matching
of the coupling invertible. The theorem says that the code, which calls RunDec several times and computes the coupling it
starts from separately from `M_Z`, ends up with the state of the trajectory.
-/

set_option autoImplicit false
set_option linter.unusedSimpArgs false

namespace Verif

namespace Spec

/-- Running and matching of the strong coupling and of a mass. -/
structure Flow where
  /-- coupling at a scale from the coupling at another scale -/
  run : ℕ → ℝ → ℝ → ℝ → ℝ
  /-- mass from the couplings at two scales -/
  mass : ℕ → ℝ → ℝ → ℝ → ℝ
  /-- coupling with one flavour less, at the threshold -/
  down : ℕ → ℝ → ℝ → ℝ
  /-- coupling with one flavour more, at the threshold -/
  up : ℕ → ℝ → ℝ → ℝ
  massDown : ℕ → ℝ → ℝ → ℝ → ℝ
  massUp : ℕ → ℝ → ℝ → ℝ → ℝ
  run_run : ∀ n a b c x, run n b c (run n a b x) = run n a c x
  run_self : ∀ n a x, run n a a x = x
  mass_mass : ∀ n a b c m, mass n b c (mass n a b m) = mass n a c m
  mass_self : ∀ n a m, mass n a a m = m
  up_down : ∀ n t x, up n t (down n t x) = x

/-- State of a trajectory. -/
structure State where
  nf : ℕ
  scale : ℝ
  coupling : ℝ
  m : ℝ

variable (F : Flow)

/-- Run to a scale. -/
def State.runTo (s : State) (μ : ℝ) : State :=
  ⟨s.nf, μ, F.run s.nf s.scale μ s.coupling, F.mass s.nf s.coupling (F.run s.nf s.scale μ s.coupling) s.m⟩

/-- Remove the heaviest flavour at the current scale. -/
def State.decouple (s : State) : State :=
  ⟨s.nf - 1, s.scale, F.down s.nf s.scale s.coupling, F.massDown s.nf s.scale s.coupling s.m⟩

/-- Add a flavour at the current scale. -/
def State.couple (s : State) : State :=
  ⟨s.nf + 1, s.scale, F.up (s.nf + 1) s.scale s.coupling, F.massUp (s.nf + 1) s.scale s.coupling s.m⟩

/-- Threshold of the `n`-th flavour. -/
noncomputable def threshold (n : ℕ) : ℝ := if n = 4 then 1.3 else if n = 5 then 4.8 else 170

/-- Pass `k` thresholds downwards. -/
noncomputable def State.lower (s : State) : ℕ → State
  | 0 => s
  | k + 1 => ((s.runTo F (threshold s.nf)).decouple F).lower k

/-- Pass `k` thresholds upwards. -/
noncomputable def State.higher (s : State) : ℕ → State
  | 0 => s
  | k + 1 => ((s.runTo F (threshold (s.nf + 1))).couple F).higher k

/-- The state with `n` flavours at a scale. -/
noncomputable def State.reach (s : State) (n : ℕ) (μ : ℝ) : State :=
  if n ≤ s.nf then (s.lower F (s.nf - n)).runTo F μ else (s.higher F (n - s.nf)).runTo F μ

/-- RunDec does exactly this for at most one threshold, with three loops. -/
structure Ideal (rd : RunDec) : Prop where
  exact : ∀ a μ μ' (n : ℕ), rd.alphasExact a μ μ' n 3 = F.run n μ μ' a
  alDown : ∀ a μ t μ' n m, rd.alH2AlL a μ ⟨t, t, n⟩ μ' 3 = ((((⟨n, μ, a, m⟩ : State).runTo F t).decouple F).runTo F μ').coupling
  alUp : ∀ a μ t μ' n m, rd.alL2AlH a μ ⟨t, t, n + 1⟩ μ' 3 = ((((⟨n, μ, a, m⟩ : State).runTo F t).couple F).runTo F μ').coupling
  mass : ∀ m a b (n : ℕ), rd.mMS2mMS m a b n 3 = F.mass n a b m
  mDown : ∀ m a μ t μ' n, rd.mH2mL m a μ ⟨t, t, n⟩ μ' 3 = ((((⟨n, μ, a, m⟩ : State).runTo F t).decouple F).runTo F μ').m
  mUp : ∀ m a μ t μ' n, rd.mL2mH m a μ ⟨t, t, n + 1⟩ μ' 3 = ((((⟨n, μ, a, m⟩ : State).runTo F t).couple F).runTo F μ').m

/-- Where a call starts: number of flavours and scale of its initial value. -/
noncomputable def start : Call → ℕ × ℝ
  | .alphaS _ _ _ => (5, MZ)
  | .mb m _ _ _ => (5, m.val)
  | .mc m _ _ _ => (4, m.val)
  | .ms _ _ _ _ => (3, 2)

/-- The trajectory of a call: the coupling at the start is that of the trajectory from `M_Z`. -/
noncomputable def trajectory (c : Call) (n : ℕ) (μ : ℝ) : State :=
  let z (a : Opt) : State := ⟨5, MZ, a.val, 0⟩
  let from' (a : Opt) (m : ℝ) : State := ⟨(start c).1, (start c).2, ((z a).reach F (start c).1 (start c).2).coupling, m⟩
  match c with
  | .alphaS _ _ a => (z a).reach F n μ
  | .mb m _ _ a => (from' a m.val).reach F n μ
  | .mc m _ _ a => (from' a m.val).reach F n μ
  | .ms m _ _ a => (from' a m.val).reach F n μ

/-- The number that a call asks for. -/
noncomputable def wanted (c : Call) (n : ℕ) (μ : ℝ) : ℝ :=
  match c with
  | .alphaS _ _ _ => (trajectory F c n μ).coupling
  | _ => (trajectory F c n μ).m

/-- Scale and number of flavours of a call. -/
def request : Call → PyNum × PyNum
  | .alphaS s f _ => (s, f)
  | .mb _ s f _ => (s, f)
  | .mc _ s f _ => (s, f)
  | .ms _ s f _ => (s, f)

/-- The shortcut of `m_c` that skips a threshold. -/
def Skips : Call → Prop
  | .mc m s f _ => s.val = m.val ∧ f.val ≠ 4
  | _ => False

end Spec

open Spec

variable {F : Flow} {rd : RunDec}

theorem sane_ok {s f : PyNum} (h : Spec.Physical [3, 4, 5, 6] s f) : (sane s f : Except PyErr Unit) = .ok () := by
  rcases sane_cases s f with ⟨h1, -⟩ | ⟨-, h2⟩
  · exact h1
  · exact absurd ((physical_iff _ (by decide) _ _).1 h).1 h2

theorem natOf {L : List ℤ} (hL : ∀ z ∈ L, z = 3 ∨ z = 4 ∨ z = 5 ∨ z = 6) {s f : PyNum} (h : Spec.Physical L s f) :
    ∃ n : ℕ, f = .int n ∧ (n : ℤ) ∈ L ∧ (n = 3 ∨ n = 4 ∨ n = 5 ∨ n = 6) ∧ Spec.Physical [3, 4, 5, 6] s (.int n) := by
  obtain ⟨h1, h2, z, hz, rfl⟩ := h
  have h3 := hL z hz
  refine ⟨z.toNat, ?_, ?_, by omega, h1, h2, z, by simp; omega, ?_⟩
  · congr 1; omega
  · rwa [Int.toNat_of_nonneg (by omega)]
  · congr 1; omega

theorem ok_bind' {α β : Type} (x : α) (f : α → Except PyErr β) : (Except.ok x >>= f) = f x := rfl

theorem val_float (x : ℝ) : (PyNum.float x).val = x := rfl

theorem val_int (z : ℤ) : (PyNum.int z).val = z := rfl

@[simp] theorem nf_runTo (s : State) (μ : ℝ) : (s.runTo F μ).nf = s.nf := rfl
@[simp] theorem nf_decouple (s : State) : (s.decouple F).nf = s.nf - 1 := rfl
@[simp] theorem nf_couple (s : State) : (s.couple F).nf = s.nf + 1 := rfl

/-- The coupling. -/
theorem alphaS_flow (hI : Ideal F rd) {s : PyNum} {n : ℕ} (h : Spec.Physical [3, 4, 5, 6] s (.int n)) (a m : ℝ) :
    (alphaSBody rd s (.int n) a : Except PyErr ℝ) = .ok ((⟨5, MZ, a, m⟩ : State).reach F n s.val).coupling := by
  have hn : n = 3 ∨ n = 4 ∨ n = 5 ∨ n = 6 := by
    obtain ⟨-, -, z, hz, e⟩ := h
    injection e with e
    simp at hz; omega
  unfold alphaSBody
  rw [sane_ok h]
  have e1 := hI.exact a MZ s.val 5
  have e2 := hI.alUp a MZ 170 s.val 5 m
  have e3 := hI.alDown a MZ 4.8 s.val 5 m
  have e4 := hI.alDown a MZ 4.8 1.3 5 m
  rcases hn with rfl | rfl | rfl | rfl
  · have e5 := hI.alDown (((((⟨5, MZ, a, m⟩ : State).runTo F 4.8).decouple F).runTo F 1.3).coupling) 1.3 1.3 s.val 4 0
    simp only [val_int]
    norm_num [State.reach, State.lower, threshold] at e4 e5 ⊢
    rw [e4, e5]
    simp [State.runTo, State.decouple, F.run_self]
  · simp only [val_int]
    norm_num [State.reach, State.lower, threshold] at e3 ⊢
    rw [e3]
  · simp only [val_int]
    by_cases hs : s.val = MZ
    · norm_num [State.reach, State.lower, threshold, hs, State.runTo, F.run_self]; rfl
    · norm_num [State.reach, State.lower, threshold, hs, State.runTo] at e1 ⊢
      rw [e1]
  · simp only [val_int]
    norm_num [State.reach, State.higher, threshold] at e2 ⊢
    rw [e2]

theorem physical_float {x : ℝ} (hx : 0 < x) {z : ℤ} (hz : z ∈ [(3 : ℤ), 4, 5, 6]) : Spec.Physical [3, 4, 5, 6] (.float x) (.int z) :=
  ⟨.inr ⟨x, rfl⟩, hx, z, hz, rfl⟩

theorem mb_flow (hI : Ideal F rd) {m s : PyNum} (hm : ((∃ n, m = .int n) ∨ ∃ x, m = .float x) ∧ 0 < m.val) {n : ℕ}
    (h : Spec.Physical [3, 4, 5, 6] s (.int n)) (a : ℝ) :
    (mbBody rd (alphaSBody rd) m s (.int n) a : Except PyErr ℝ) =
      .ok ((⟨5, m.val, ((⟨5, MZ, a, 0⟩ : State).reach F 5 m.val).coupling, m.val⟩ : State).reach F n s.val).m := by
  have hn : n = 3 ∨ n = 4 ∨ n = 5 ∨ n = 6 := by
    obtain ⟨-, -, z, hz, e⟩ := h
    injection e with e
    simp at hz; omega
  have a1 := alphaS_flow hI (s := m) (n := 5) ⟨hm.1, hm.2, 5, by simp, rfl⟩ a 0
  have a2 := alphaS_flow hI h a 0
  have a3 := alphaS_flow hI (s := .float 1.3) (n := 4) (physical_float (by norm_num) (by simp)) a 0
  unfold mbBody
  simp only [Nat.cast_ofNat] at a1 a3
  rw [sane_ok h, a1, a2, a3]
  simp only [ok_bind', val_float]
  generalize hA : ((⟨5, MZ, a, 0⟩ : State).reach F 5 m.val).coupling = A
  have hA' : A = F.run 5 MZ m.val a := by rw [← hA]; simp [State.reach, State.lower, State.runTo]
  rcases hn with rfl | rfl | rfl | rfl
  · have e1 := hI.mDown m.val A m.val 4.8 1.3 5
    simp only [val_int]
    norm_num [State.reach, State.lower, threshold] at e1 ⊢
    rw [e1, hI.mDown]
    simp [pure, Except.pure, State.runTo, State.decouple, F.run_self, F.mass_self, hA', F.run_run]
  · have e1 := hI.mDown m.val A m.val 4.8 s.val 5
    simp only [val_int]
    norm_num [State.reach, State.lower, threshold] at e1 ⊢
    rw [e1]; rfl
  · have e1 := hI.mass m.val A (((⟨5, MZ, a, 0⟩ : State).reach F 5 s.val).coupling) 5
    simp only [val_int]
    by_cases hs : s.val = m.val
    · norm_num [State.reach, State.lower, threshold, State.runTo, hs, F.run_self, F.mass_self]; rfl
    · norm_num [State.reach, State.lower, threshold, State.runTo, hs] at e1 ⊢
      rw [e1]
      simp [pure, Except.pure, hA', F.run_run]
  · have e1 := hI.mUp m.val A m.val 170 s.val 5
    simp only [val_int]
    norm_num [State.reach, State.higher, threshold] at e1 ⊢
    rw [e1]; rfl

theorem mc_flow (hI : Ideal F rd) {m s : PyNum} (hm : ((∃ n, m = .int n) ∨ ∃ x, m = .float x) ∧ 0 < m.val) {n : ℕ}
    (h : Spec.Physical [3, 4, 5, 6] s (.int n)) (hn : n = 3 ∨ n = 4 ∨ n = 5) (hs : n ≠ 4 → s.val ≠ m.val) (a : ℝ) :
    (mcBody rd (alphaSBody rd) m s (.int n) a : Except PyErr ℝ) =
      .ok ((⟨4, m.val, ((⟨5, MZ, a, 0⟩ : State).reach F 4 m.val).coupling, m.val⟩ : State).reach F n s.val).m := by
  have a1 := alphaS_flow hI (s := m) (n := 4) ⟨hm.1, hm.2, 4, by simp, rfl⟩ a 0
  have a2 := alphaS_flow hI h a 0
  unfold mcBody
  simp only [Nat.cast_ofNat] at a1
  rw [sane_ok h, a1, a2]
  simp only [ok_bind', val_float]
  generalize hA : ((⟨5, MZ, a, 0⟩ : State).reach F 4 m.val).coupling = A
  have hA' : A = F.run 4 4.8 m.val (F.down 5 4.8 (F.run 5 MZ 4.8 a)) := by
    rw [← hA]; simp [State.reach, State.lower, State.runTo, State.decouple, threshold]
  rcases hn with rfl | rfl | rfl
  · have e1 := hI.mDown m.val A m.val 1.3 s.val 4
    simp only [val_int, if_neg (hs (by decide))]
    norm_num [State.reach, State.lower, threshold] at e1 ⊢
    rw [e1]; rfl
  · have e1 := hI.mass m.val A (((⟨5, MZ, a, 0⟩ : State).reach F 4 s.val).coupling) 4
    simp only [val_int]
    by_cases hs : s.val = m.val
    · norm_num [State.reach, State.lower, threshold, State.runTo, hs, F.run_self, F.mass_self]; rfl
    · norm_num [State.reach, State.lower, threshold, State.runTo, State.decouple, hs] at e1 hA' ⊢
      rw [e1]
      simp [pure, Except.pure, hA', F.run_run]
  · have e1 := hI.mUp m.val A m.val 4.8 s.val 4
    simp only [val_int, if_neg (hs (by decide))]
    norm_num [State.reach, State.higher, threshold] at e1 ⊢
    rw [e1]; rfl

theorem ms_flow (hI : Ideal F rd) {m s : PyNum} {n : ℕ}
    (h : Spec.Physical [3, 4, 5, 6] s (.int n)) (hn : n = 3 ∨ n = 4 ∨ n = 5) (a : ℝ) :
    (msBody rd (alphaSBody rd) m s (.int n) a : Except PyErr ℝ) =
      .ok ((⟨3, 2, ((⟨5, MZ, a, 0⟩ : State).reach F 3 2).coupling, m.val⟩ : State).reach F n s.val).m := by
  have a1 := alphaS_flow hI (s := .int 2) (n := 3) ⟨.inl ⟨2, rfl⟩, by simp [PyNum.val], 3, by simp, rfl⟩ a 0
  have a2 := alphaS_flow hI h a 0
  have a3 := alphaS_flow hI (s := .float 1.3) (n := 4) (physical_float (by norm_num) (by simp)) a 0
  unfold msBody
  simp only [Nat.cast_ofNat] at a1 a3
  rw [sane_ok h, a1, a2, a3]
  simp only [ok_bind', val_float]
  have e2 : (PyNum.int 2).val = 2 := by simp [PyNum.val]
  rw [e2]
  generalize hA : ((⟨5, MZ, a, 0⟩ : State).reach F 3 2).coupling = A
  have hA' : A = F.run 3 1.3 2 (F.down 4 1.3 (F.run 4 4.8 1.3 (F.down 5 4.8 (F.run 5 MZ 4.8 a)))) := by
    rw [← hA]; simp [State.reach, State.lower, State.runTo, State.decouple, threshold]
  rcases hn with rfl | rfl | rfl
  · have e1 := hI.mass m.val A (((⟨5, MZ, a, 0⟩ : State).reach F 3 s.val).coupling) 3
    simp only [val_int]
    by_cases hs : s.val = 2
    · norm_num [State.reach, State.lower, threshold, State.runTo, hs, F.run_self, F.mass_self]; rfl
    · norm_num [State.reach, State.lower, threshold, State.runTo, State.decouple, hs] at e1 hA' ⊢
      rw [e1]
      simp [pure, Except.pure, hA', F.run_run]
  · have e1 := hI.mUp m.val A 2 1.3 s.val 3
    simp only [val_int]
    norm_num [State.reach, State.higher, threshold] at e1 ⊢
    rw [e1]; rfl
  · have e1 := hI.mUp m.val A 2 1.3 1.3 3
    simp only [val_int]
    norm_num [State.reach, State.lower, State.higher, threshold] at e1 ⊢
    rw [e1, hI.mUp]
    norm_num at hA'
    simp [pure, Except.pure, State.runTo, State.couple, State.decouple, F.run_self, F.mass_self, hA', F.run_run, F.up_down]

/-- **C62**, what holds: every physical request is answered with the value on the trajectory. Excluded: `m_c` at its own
scale with another number of flavours than 4. -/
theorem C62_partial (hI : Ideal F rd) (c : Call) (h : Spec.Call.Physical c) (hg : Spec.Call.GoodMass c) (hs : ¬ Skips c) :
    ∃ n : ℕ, (request c).2 = .int n ∧ plain rd c = .ok (wanted F c n (request c).1.val) := by
  have L4 : ∀ z ∈ [(3 : ℤ), 4, 5, 6], z = 3 ∨ z = 4 ∨ z = 5 ∨ z = 6 := by decide
  have L3 : ∀ z ∈ [(3 : ℤ), 4, 5], z = 3 ∨ z = 4 ∨ z = 5 ∨ z = 6 := by decide
  cases c with
  | alphaS s f a =>
    obtain ⟨n, rfl, -, -, h'⟩ := natOf L4 h
    exact ⟨n, rfl, alphaS_flow hI h' _ _⟩
  | mb m s f a =>
    obtain ⟨n, rfl, -, -, h'⟩ := natOf L4 h
    exact ⟨n, rfl, mb_flow hI hg h' _⟩
  | mc m s f a =>
    obtain ⟨n, rfl, hn, -, h'⟩ := natOf L3 h
    refine ⟨n, rfl, mc_flow hI hg h' (by simp at hn; omega) ?_ _⟩
    intro h4 e
    exact hs ⟨e, by simp only [PyNum.val]; exact_mod_cast h4⟩
  | ms m s f a =>
    obtain ⟨n, rfl, hn, -, h'⟩ := natOf L3 h
    exact ⟨n, rfl, ms_flow hI h' (by simp at hn; omega) _⟩

/-- A flow with constant coupling and masses, in which decoupling changes a mass by a factor. -/
noncomputable def toyFlow : Flow where
  run _ _ _ x := x
  mass _ _ _ m := m
  down _ _ x := x / 2
  up _ _ x := 2 * x
  massDown _ _ _ m := m / 2
  massUp _ _ _ m := 2 * m
  run_run _ _ _ _ _ := rfl
  run_self _ _ _ := rfl
  mass_mass _ _ _ _ _ := rfl
  mass_self _ _ _ := rfl
  up_down _ _ x := mul_div_cancel₀ x two_ne_zero

/-- Its RunDec. -/
noncomputable def toyRunDec : RunDec :=
  ⟨fun a _ _ _ _ => a, fun a _ _ _ _ => 2 * a, fun a _ _ _ _ => a / 2, fun m _ _ _ _ => m, fun m _ _ _ _ _ => m / 2,
    fun m _ _ _ _ _ => 2 * m⟩

theorem toyIdeal : Ideal toyFlow toyRunDec where
  exact _ _ _ _ := rfl
  alDown _ _ _ _ _ _ := rfl
  alUp _ _ _ _ _ _ := rfl
  mass _ _ _ _ := rfl
  mDown _ _ _ _ _ _ := rfl
  mUp _ _ _ _ _ _ := rfl

/-- **C62** is false for `m_c`: at its own scale it is returned unchanged for any number of flavours. -/
theorem C62_refuted : ¬ ∀ (F : Flow) (rd : RunDec), Ideal F rd → ∀ c, Spec.Call.Physical c → Spec.Call.GoodMass c →
    ∃ n : ℕ, (request c).2 = .int n ∧ plain rd c = .ok (wanted F c n (request c).1.val) := by
  intro h
  obtain ⟨n, h1, h2⟩ := h toyFlow toyRunDec toyIdeal (.mc (.float 1) (.float 1) (.int 3) .dflt)
    ⟨.inr ⟨1, rfl⟩, by simp [PyNum.val], 3, by simp, rfl⟩ ⟨.inr ⟨1, rfl⟩, by simp [PyNum.val]⟩
  have hn : n = 3 := by
    simp only [request] at h1
    injection h1 with h1
    omega
  subst hn
  simp [plain, mcBody, PyNum.val, wanted, trajectory, start, request, State.reach, State.lower, State.runTo, State.decouple, toyFlow,
    pure, Except.pure] at h2

/-- Non-trivial instance: the strange mass with five flavours passes two thresholds. -/
example : plain toyRunDec (.ms (.float 1) (.float 100) (.int 5) .dflt) = .ok 4 := by
  obtain ⟨n, h1, h2⟩ := C62_partial toyIdeal (.ms (.float 1) (.float 100) (.int 5) .dflt)
    ⟨.inr ⟨100, rfl⟩, by simp [PyNum.val], 5, by simp, rfl⟩ trivial (by simp [Skips])
  have hn : n = 5 := by
    simp only [request] at h1
    injection h1 with h1
    omega
  subst hn
  rw [h2]
  norm_num [wanted, trajectory, start, request, State.reach, State.lower, State.higher, State.runTo, State.decouple, State.couple, toyFlow,
    PyNum.val]

end Verif
