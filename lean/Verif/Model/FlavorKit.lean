import Verif.Model.Wet
import Verif.Model.SmeftTrans
import Verif.Model.FlavorKitData

/-!
`FlavorKit_to_JMS` and `JMS_to_FlavorKit`, translators/wet.py:1224-1283.

The local variable `m` of the loops keeps its value from one pass to the next; it is the first component of the loop
state, `none` while unassigned.
-/

set_option autoImplicit false

namespace Verif

/-- wet.py:1241-1246, 1274-1279: the three `if` statements assigning the mass; otherwise `m` stays as it is. -/
def leptonMass (p : WPar) (c : Char) (m : Option ℝ) : Option ℝ :=
  if c = '1' then some p.m_e else if c = '2' then some p.m_mu else if c = '3' then some p.m_tau else m

/-- Reading the local variable `m`. -/
def boundOr (m : Option ℝ) : Except PyErr ℝ :=
  match m with
  | some x => .ok x
  | none => .error .unboundLocal

/-- `s[i]`. -/
def chAt (s : List Char) (i : ℕ) : Except PyErr Char :=
  match s[i]? with
  | some c => .ok c
  | none => .error .indexError

/-- wet.py:1229-1249, one pass of the loop of `FlavorKit_to_JMS`. -/
noncomputable def fkToJmsStep (p : WPar) (s : Option ℝ × Dict String ℂ) (kv : String × ℂ) :
    Except PyErr (Option ℝ × Dict String ℂ) :=
  match Dict.find fkJms kv.1 with
  | some k' => .ok (s.1, Dict.put s.2 k' kv.2)
  | none =>
    match Dict.find fkJmsConj kv.1 with
    | some k' => .ok (s.1, Dict.put s.2 k' (starRingEnd ℂ kv.2))
    | none =>
      if kv.1 = "AVLL_2231" then .ok (s.1, Dict.put s.2 "VeeLL_1223" kv.2)
      else if kv.1 = "AVRR_2231" then .ok (s.1, Dict.put s.2 "VeeRR_1223" kv.2)
      else if kv.1.toList.take 4 = "K2R_".toList then do
        let ind := (kv.1.toList.drop 4).reverse
        let e ← sqrtE (4 * Real.pi * p.alpha_e)
        let c ← chAt ind 1
        let m ← boundOr (leptonMass p c s.1)
        return (some m, Dict.put s.2 ("egamma_" ++ String.ofList ind) (((1 / 2 * e * m : ℝ) : ℂ) * kv.2))
      else .error (.valueError "Unexpected key")

/-- wet.py:1224-1250 `FlavorKit_to_JMS`. -/
noncomputable def fkToJms (E : WEnv) (C : Dict String ℂ) (scale : ℝ) (par : Option Par) : Except PyErr (Dict String ℂ) := do
  let p ← getParameters E scale par
  let s ← C.foldlM (fkToJmsStep p) (none, [])
  return s.2

/-- `{v: k for k, v in d.items()}`. -/
def revert (d : Dict String String) : Dict String String := Dict.ofPairs (d.map fun q => (q.2, q.1))

/-- `k.split('_')[1]`. -/
def secondPart (k : String) : Except PyErr (List Char) :=
  match k.toList.dropWhile (· ≠ '_') with
  | [] => .error .indexError
  | _ :: t => .ok (t.takeWhile (· ≠ '_'))

/-- wet.py:1260-1282, one pass of the loop of `JMS_to_FlavorKit`. -/
noncomputable def jmsToFkStep (p : WPar) (s : Option ℝ × Dict String ℂ) (kv : String × ℂ) :
    Except PyErr (Option ℝ × Dict String ℂ) :=
  match Dict.find (revert fkJms) kv.1 with
  | some k' => .ok (s.1, Dict.put s.2 k' kv.2)
  | none =>
    match Dict.find (revert fkJmsConj) kv.1 with
    | some k' => .ok (s.1, Dict.put s.2 k' (starRingEnd ℂ kv.2))
    | none =>
      if kv.1 = "VeeLL_1223" then .ok (s.1, Dict.put s.2 "AVLL_2231" kv.2)
      else if kv.1 = "VeeRR_1223" then .ok (s.1, Dict.put s.2 "AVRR_2231" kv.2)
      else if headPart kv.1 = "egamma" then do
        let ind := (← secondPart kv.1).reverse
        let c0 ← chAt ind 0
        let c1 ← chAt ind 1
        if c0 = c1 then return s
        else
          let e ← sqrtE (4 * Real.pi * p.alpha_e)
          let x ← divE 2 e
          let m ← boundOr (leptonMass p c0 s.1)
          let y ← divE x m
          return (some m, Dict.put s.2 ("K2R_" ++ String.ofList ind) ((y : ℂ) * kv.2))
      else .ok s

/-- wet.py:1253-1283 `JMS_to_FlavorKit`. -/
noncomputable def jmsToFk (E : WEnv) (C : Dict String ℂ) (scale : ℝ) (par : Option Par) : Except PyErr (Dict String ℂ) := do
  let p ← getParameters E scale par
  let s ← C.foldlM (jmsToFkStep p) (none, [])
  return s.2

end Verif
