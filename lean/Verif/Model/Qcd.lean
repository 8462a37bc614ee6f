import Verif.Py.Dict
import Mathlib.Data.Real.Basic

/-!
Model of `wcxf/util/qcd.py`.

The RunDec library is external: `RunDec` holds its functions (the attribute `nfMmu` of the fresh
`CRunDec` object, which the code fills before each call, is passed as three arguments). The bodies are
written over an arbitrary monad so that the same text is used with and without the memoisation of
`functools.lru_cache`.
-/

set_option autoImplicit false

namespace Verif

/-- A Python number: `int` (also `bool`), `float`, or a number of a type that is neither (such as a NumPy
integer or a fraction). Not modelled: NaN, infinities and complex numbers. -/
inductive PyNum where
  | int (n : Int)
  | float (x : ℝ)
  | other (x : ℝ)

/-- Value of a number; `==`, `<=` and hashing only see the value. -/
def PyNum.val : PyNum → ℝ
  | .int n => n
  | .float x => x
  | .other x => x

/-- `isinstance(x, int)`. -/
def PyNum.isInt : PyNum → Bool
  | .int _ => true
  | _ => false

/-- `isinstance(x, (float, int))`. -/
def PyNum.isFloatOrInt : PyNum → Bool
  | .other _ => false
  | _ => true

/-- Values assigned to `crd.nfMmu` (`Mth`, `muth`, `nf`). -/
structure Threshold where
  mth : ℝ
  muth : ℝ
  nf : ℕ

/-- The functions of the RunDec library used by the code. -/
structure RunDec where
  alphasExact : ℝ → ℝ → ℝ → ℝ → ℕ → ℝ
  alL2AlH : ℝ → ℝ → Threshold → ℝ → ℕ → ℝ
  alH2AlL : ℝ → ℝ → Threshold → ℝ → ℕ → ℝ
  mMS2mMS : ℝ → ℝ → ℝ → ℝ → ℕ → ℝ
  mH2mL : ℝ → ℝ → ℝ → Threshold → ℝ → ℕ → ℝ
  mL2mH : ℝ → ℝ → ℝ → Threshold → ℝ → ℕ → ℝ

/-- qcd.py:13 `MZ`. -/
noncomputable def MZ : ℝ := 91.1876

noncomputable section
open Classical

variable {M : Type → Type} [Monad M] [MonadExceptOf PyErr M]

/-- qcd.py:5-10 `_sane`. Line 9 negates only the first part of the condition. -/
def sane (scale f : PyNum) : M Unit := do
  if ¬ scale.isFloatOrInt = true ∨ scale.val ≤ 0 then
    throw (.valueError "Scale must be a positive number")
  if ¬ f.isInt = true ∧ 3 ≤ f.val ∧ f.val ≤ 6 then
    throw (.valueError "f must be an integer between 3 and 6")

/-- qcd.py:16-49 `alpha_s` (without the cache). -/
def alphaSBody (rd : RunDec) (scale f : PyNum) (a : ℝ) : M ℝ := do
  if scale.val = MZ ∧ f.val = 5 then return a
  sane scale f
  if f.val = 5 then return rd.alphasExact a MZ scale.val f.val 3
  else if f.val = 6 then return rd.alL2AlH a MZ ⟨170, 170, 6⟩ scale.val 3
  else if f.val = 4 then return rd.alH2AlL a MZ ⟨4.8, 4.8, 5⟩ scale.val 3
  else if f.val = 3 then
    let asmc := rd.alH2AlL a MZ ⟨4.8, 4.8, 5⟩ 1.3 3
    return rd.alH2AlL asmc 1.3 ⟨1.3, 1.3, 4⟩ scale.val 3
  else throw (.valueError "Invalid input")

/-- qcd.py:52-86 `m_b`; `alphaS` is the function used for `alpha_s`. -/
def mbBody (rd : RunDec) (alphaS : PyNum → PyNum → ℝ → M ℝ) (mbmb scale f : PyNum) (a : ℝ) : M ℝ := do
  if scale.val = mbmb.val ∧ f.val = 5 then return mbmb.val
  sane scale f
  let alphasMb ← alphaS mbmb (.int 5) a
  if f.val = 5 then
    let alphasScale ← alphaS scale f a
    return rd.mMS2mMS mbmb.val alphasMb alphasScale f.val 3
  else if f.val = 4 then return rd.mH2mL mbmb.val alphasMb mbmb.val ⟨4.8, 4.8, 5⟩ scale.val 3
  else if f.val = 3 then
    let mbmc := rd.mH2mL mbmb.val alphasMb mbmb.val ⟨4.8, 4.8, 5⟩ 1.3 3
    let alphasMc ← alphaS (.float 1.3) (.int 4) a
    return rd.mH2mL mbmc alphasMc 1.3 ⟨1.3, 1.3, 4⟩ scale.val 3
  else if f.val = 6 then return rd.mL2mH mbmb.val alphasMb mbmb.val ⟨170, 170, 6⟩ scale.val 3
  else throw (.valueError "Invalid input")

/-- qcd.py:89-113 `m_c`. -/
def mcBody (rd : RunDec) (alphaS : PyNum → PyNum → ℝ → M ℝ) (mcmc scale f : PyNum) (a : ℝ) : M ℝ := do
  if scale.val = mcmc.val then return mcmc.val
  sane scale f
  let alphasMc ← alphaS mcmc (.int 4) a
  if f.val = 4 then
    let alphasScale ← alphaS scale f a
    return rd.mMS2mMS mcmc.val alphasMc alphasScale f.val 3
  else if f.val = 3 then return rd.mH2mL mcmc.val alphasMc mcmc.val ⟨1.3, 1.3, 4⟩ scale.val 3
  else if f.val = 5 then return rd.mL2mH mcmc.val alphasMc mcmc.val ⟨4.8, 4.8, 5⟩ scale.val 3
  else throw (.valueError "Invalid input")

/-- qcd.py:116-146 `m_s`. -/
def msBody (rd : RunDec) (alphaS : PyNum → PyNum → ℝ → M ℝ) (ms2 scale f : PyNum) (a : ℝ) : M ℝ := do
  if scale.val = 2 ∧ f.val = 3 then return ms2.val
  sane scale f
  let alphas2 ← alphaS (.int 2) (.int 3) a
  if f.val = 3 then
    let alphasScale ← alphaS scale f a
    return rd.mMS2mMS ms2.val alphas2 alphasScale f.val 3
  else if f.val = 4 then return rd.mL2mH ms2.val alphas2 2 ⟨1.3, 1.3, 4⟩ scale.val 3
  else if f.val = 5 then
    let msmc := rd.mL2mH ms2.val alphas2 2 ⟨1.3, 1.3, 4⟩ 1.3 3
    let alphasMc ← alphaS (.float 1.3) (.int 4) a
    return rd.mL2mH msmc alphasMc 1.3 ⟨4.8, 4.8, 5⟩ scale.val 3
  else throw (.valueError "Invalid input")

/-! ### Without cache -/

/-- How the last argument `alphasMZ` is given in a call: left out (default 0.1185), by position, or by
keyword. The memoisation distinguishes the three. -/
inductive Opt where
  | dflt
  | pos (a : PyNum)
  | kw (a : PyNum)

/-- The value of `alphasMZ`. -/
def Opt.val : Opt → ℝ
  | .dflt => 0.1185
  | .pos a => a.val
  | .kw a => a.val

/-- A call of one of the four functions. Keyword use for the other arguments is not modelled. -/
inductive Call where
  | alphaS (scale f : PyNum) (a : Opt)
  | mb (mbmb scale f : PyNum) (a : Opt)
  | mc (mcmc scale f : PyNum) (a : Opt)
  | ms (ms2 scale f : PyNum) (a : Opt)

/-- The four functions without memoisation. -/
def plain (rd : RunDec) : Call → Except PyErr ℝ
  | .alphaS s f a => alphaSBody rd s f a.val
  | .mb m s f a => mbBody rd (alphaSBody rd) m s f a.val
  | .mc m s f a => mcBody rd (alphaSBody rd) m s f a.val
  | .ms m s f a => msBody rd (alphaSBody rd) m s f a.val

/-! ### `functools.lru_cache(32)` -/

/-- Cache key: the function, the positional arguments and the keyword argument, compared by value
(`typed=False`). -/
structure Key where
  fn : ℕ
  args : List ℝ
  kw : Option ℝ

/-- The cache key of a call. -/
def Call.key : Call → Key
  | .alphaS s f .dflt => ⟨0, [s.val, f.val], none⟩
  | .alphaS s f (.pos a) => ⟨0, [s.val, f.val, a.val], none⟩
  | .alphaS s f (.kw a) => ⟨0, [s.val, f.val], some a.val⟩
  | .mb m s f .dflt => ⟨1, [m.val, s.val, f.val], none⟩
  | .mb m s f (.pos a) => ⟨1, [m.val, s.val, f.val, a.val], none⟩
  | .mb m s f (.kw a) => ⟨1, [m.val, s.val, f.val], some a.val⟩
  | .mc m s f .dflt => ⟨2, [m.val, s.val, f.val], none⟩
  | .mc m s f (.pos a) => ⟨2, [m.val, s.val, f.val, a.val], none⟩
  | .mc m s f (.kw a) => ⟨2, [m.val, s.val, f.val], some a.val⟩
  | .ms m s f .dflt => ⟨3, [m.val, s.val, f.val], none⟩
  | .ms m s f (.pos a) => ⟨3, [m.val, s.val, f.val, a.val], none⟩
  | .ms m s f (.kw a) => ⟨3, [m.val, s.val, f.val], some a.val⟩

/-- Entries of one cache, most recently used first. -/
abbrev Cache := List (Key × ℝ)

/-- The caches of the four functions. -/
abbrev Caches := ℕ → Cache

/-- State of the process: exceptions keep the caches. -/
abbrev Cached := ExceptT PyErr (StateM Caches)

/-- `lru_cache(32)` around a body: a hit moves the entry to the front; a miss runs the body and, unless
it raises, stores the result and drops the least recently used entries beyond 32. -/
def lru (k : Key) (body : Cached ℝ) : Cached ℝ := do
  let s ← get
  match (s k.fn).find? (fun p => p.1 = k) with
  | some p =>
    set (Function.update s k.fn (p :: (s k.fn).filter fun q => q.1 ≠ k))
    return p.2
  | none =>
    let v ← body
    modify fun s => Function.update s k.fn (((k, v) :: s k.fn).take 32)
    return v

/-- `alpha_s` with its cache, called as `alpha_s(scale, f, alphasMZ=a)` by the other functions. -/
def cachedAlphaS (rd : RunDec) (scale f : PyNum) (a : Opt) : Cached ℝ :=
  lru (Call.alphaS scale f a).key (alphaSBody rd scale f a.val)

/-- The four functions with memoisation. -/
def cached (rd : RunDec) : Call → Cached ℝ
  | .alphaS s f a => cachedAlphaS rd s f a
  | .mb m s f a => lru (Call.mb m s f a).key (mbBody rd (fun s f a => cachedAlphaS rd s f (.kw (.float a))) m s f a.val)
  | .mc m s f a => lru (Call.mc m s f a).key (mcBody rd (fun s f a => cachedAlphaS rd s f (.kw (.float a))) m s f a.val)
  | .ms m s f a => lru (Call.ms m s f a).key (msBody rd (fun s f a => cachedAlphaS rd s f (.kw (.float a))) m s f a.val)

/-- Run a history of calls from empty caches: the caches afterwards (the answers are the user's). -/
def runCalls (rd : RunDec) (s : Caches) : List Call → Caches
  | [] => s
  | c :: cs => runCalls rd ((cached rd c).run.run s).2 cs

/-- The answer to the call `c` after the history `h`. -/
def answerAfter (rd : RunDec) (h : List Call) (c : Call) : Except PyErr ℝ :=
  ((cached rd c).run.run (runCalls rd (fun _ => []) h)).1

end

end Verif
