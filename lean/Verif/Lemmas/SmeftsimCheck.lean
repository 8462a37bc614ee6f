import Mathlib.Data.List.Perm.Subperm
import Mathlib.Data.Nat.Bitwise
import Verif.Lemmas.SmeftsimCertA
import Verif.Lemmas.SmeftsimCertB
import Verif.Lemmas.FlatLemmas

/-! Checks of the codes of the SMEFTsim card rows. -/

set_option autoImplicit false

namespace Verif

open Spec

/-- The codes of a model set. -/
def codeTable : ModelSet → List (String × Option ℕ × List ℕ)
  | .A => codeTableA
  | .B => codeTableB

theorem setBlocks_eq (m : ModelSet) : setBlocks m = (codeTable m).map fun p => (p.1, codeRows m p.2.1 p.2.2) := by
  cases m
  · exact blocksA_eq
  · exact blocksB_eq

/-! ### Distinctness by bit masks -/

/-- The numbers are distinct and their bits are not set in `acc`. -/
def maskOk : List ℕ → ℕ → Bool
  | [], _ => true
  | a :: l, acc => !acc.testBit a && maskOk l (acc ||| 1 <<< a)

theorem maskOk_nodup : ∀ (l : List ℕ) (acc : ℕ), maskOk l acc = true → l.Nodup ∧ ∀ a ∈ l, acc.testBit a = false
  | [], _, _ => ⟨List.nodup_nil, fun _ h => absurd h List.not_mem_nil⟩
  | a :: l, acc, h => by
    simp only [maskOk, Bool.and_eq_true, Bool.not_eq_true'] at h
    obtain ⟨h1, h2⟩ := maskOk_nodup l _ h.2
    have hb : ∀ b ∈ l, acc.testBit b = false ∧ b ≠ a := by
      intro b hb
      have := h2 b hb
      rw [Nat.testBit_or, Bool.or_eq_false_iff] at this
      refine ⟨this.1, ?_⟩
      rintro rfl
      rw [Nat.one_shiftLeft, Nat.testBit_two_pow_self] at this
      exact absurd this.2 (by simp)
    refine ⟨List.nodup_cons.2 ⟨fun hm => (hb a hm).2 rfl, h1⟩, ?_⟩
    intro b hm
    rcases List.mem_cons.1 hm with rfl | hm
    · exact h.1
    · exact (hb b hm).1

/-! ### Decidable forms of the relations -/

/-- `Indep` -/
def indepB : Op → List (Fin 3) → Bool
  | .boson, [] => true
  | .two x y, [p, r] => match cls2 x y with
    | none => true
    | some _ => decide (Indep2 (p, r))
  | .four x y z w, [p, r, s, t] => match cls4 x y z w with
    | none => true
    | some c => decide (Indep4 c (p, r, s, t))
  | _, _ => false

theorem indepB_iff (op : Op) (i : List (Fin 3)) : indepB op i = true ↔ Indep op i := by
  unfold indepB Indep
  split
  · simp
  · rename_i x y p r
    cases h : cls2 x y <;> simp [h]
  · rename_i x y z w p r s t
    cases h : cls4 x y z w <;> simp [h]
  · rename_i h1 h2 h3
    split
    · exact absurd rfl (h1 rfl)
    · exact absurd rfl (h2 _ _ _ _ rfl)
    · exact absurd rfl (h3 _ _ _ _ _ _ _ _ rfl)
    · simp

/-- `IsReal` -/
def realB : Op → List (Fin 3) → Bool
  | .boson, [] => true
  | .two x y, [p, r] => match cls2 x y with
    | none => false
    | some c => decide (Real2 c (p, r))
  | .four x y z w, [p, r, s, t] => match cls4 x y z w with
    | none => false
    | some c => decide (Real4 c (p, r, s, t))
  | _, _ => false

theorem realB_iff (op : Op) (i : List (Fin 3)) : realB op i = true ↔ IsReal op i := by
  unfold realB IsReal
  split
  · simp
  · rename_i x y p r
    cases h : cls2 x y <;> simp [h]
  · rename_i x y z w p r s t
    cases h : cls4 x y z w <;> simp [h]
  · rename_i h1 h2 h3
    split
    · exact absurd rfl (h1 rfl)
    · exact absurd rfl (h2 _ _ _ _ rfl)
    · exact absurd rfl (h3 _ _ _ _ _ _ _ _ rfl)
    · simp

/-- Sufficient for `SameEntry`: equal, exchange of two identical currents, Fierz identity. -/
def sameB (op : Op) (i j : List (Fin 3)) : Bool :=
  decide (i = j) || match op, i with
    | .four x y z w, [p, r, s, t] => match cls4 x y z w with
      | some .twoIdentical => decide (j = [s, t, p, r])
      | some .singlet => decide (j = [s, t, p, r]) || decide (j = [p, t, s, r])
      | _ => false
    | _, _ => false

theorem sameB_sound {op : Op} {i j : List (Fin 3)} (hi : i.length = op.rank) (h : sameB op i j = true) : SameEntry op i j := by
  simp only [sameB, Bool.or_eq_true, decide_eq_true_eq] at h
  rcases h with rfl | h
  · exact ⟨hi, hi, fun _ _ => rfl⟩
  · split at h
    · rename_i x y z w p r s t
      split at h
      · rename_i hc
        obtain rfl := of_decide_eq_true h
        exact ⟨rfl, rfl, fun C hC => ((hC _ hc) p r s t).2.symm⟩
      · rename_i hc
        simp only [Bool.or_eq_true, decide_eq_true_eq] at h
        rcases h with rfl | rfl
        · exact ⟨rfl, rfl, fun C hC => ((hC _ hc) p r s t).2.1.symm⟩
        · exact ⟨rfl, rfl, fun C hC => ((hC _ hc) p r s t).2.2.symm⟩
      · exact absurd h (by simp)
    · exact absurd h (by simp)

/-! ### Checks of single codes -/

/-- Number of index tuples. -/
def tuples : Op → ℕ
  | .boson => 1
  | .two _ _ => 9
  | .four _ _ _ _ => 81

/-- A code that is not the cutoff describes an independent coefficient; phases are written for complex coefficients only,
plain values for real ones only. -/
def validCode (c : ℕ) : Bool :=
  decide (c % 8 = 4) || (decide (c / 8 % 64 < 59) && decide (c / 512 % 128 < tuples (cOp c).op) &&
    decide (c / 65536 < tuples (cOp c).op) && indepB (cOp c).op (cIx c) &&
    sameB (cOp c).op (cIx c) (cIx' c) && match cKind c with
      | .ph => !realB (cOp c).op (cIx c)
      | .val => realB (cOp c).op (cIx c)
      | .lam => false
      | _ => decide ((cOp c).op ≠ .boson))

/-- In a block of its own the comment has the indices of the coefficient. -/
def validFlav (c : ℕ) : Bool := decide (c % 8 ≠ 4) && decide (cIx c = cIx' c)

/-- All codes. -/
def codesOf (m : ModelSet) : List ℕ := (codeTable m).flatMap fun p => p.2.2

theorem validA : (codesOf .A).all validCode = true := by decide +kernel
theorem validB : (codesOf .B).all validCode = true := by decide +kernel

theorem valid_of_mem {m : ModelSet} {c : ℕ} (h : c ∈ codesOf m) : validCode c = true := by
  cases m
  · exact List.all_eq_true.1 validA c h
  · exact List.all_eq_true.1 validB c h

theorem flavA : (codeTable .A).all (fun p => p.2.1.isSome || p.2.2.all validFlav) = true := by decide +kernel
theorem flavB : (codeTable .B).all (fun p => p.2.1.isSome || p.2.2.all validFlav) = true := by decide +kernel

/-! ### Completeness -/

/-- Operator and indices of a code as a number. -/
def magKey (c : ℕ) : ℕ := c / 8 % 64 * 81 + c / 512 % 128

/-- Magnitude or value. -/
def isMag (c : ℕ) : Bool := decide (c % 8 < 2) || decide (c % 8 = 3)

/-- Phase. -/
def isPh (c : ℕ) : Bool := decide (c % 8 = 2)

/-- All independent coefficients. -/
def wanted : List ℕ := (List.range 59).flatMap fun o =>
  ((List.range (tuples (opNo o).op)).filter fun n => indepB (opNo o).op (ixOf (opNo o).op n)).map fun n => o * 81 + n

/-- All complex independent coefficients. -/
def wantedPh : List ℕ := (List.range 59).flatMap fun o =>
  ((List.range (tuples (opNo o).op)).filter fun n => indepB (opNo o).op (ixOf (opNo o).op n) &&
    !realB (opNo o).op (ixOf (opNo o).op n)).map fun n => o * 81 + n

theorem len_wanted : wanted.length = 1356 ∧ wantedPh.length = 1143 := by decide +kernel

theorem magA : (((codesOf .A).filter isMag).map magKey).length = 1356 ∧ maskOk (((codesOf .A).filter isMag).map magKey) 0 := by
  decide +kernel
theorem magB : (((codesOf .B).filter isMag).map magKey).length = 1356 ∧ maskOk (((codesOf .B).filter isMag).map magKey) 0 := by
  decide +kernel
theorem phA : (((codesOf .A).filter isPh).map magKey).length = 1143 ∧ maskOk (((codesOf .A).filter isPh).map magKey) 0 := by
  decide +kernel
theorem phB : (((codesOf .B).filter isPh).map magKey).length = 1143 ∧ maskOk (((codesOf .B).filter isPh).map magKey) 0 := by
  decide +kernel

/-- Operator, part and indices of the comment as a number. -/
def nameKey (c : ℕ) : ℕ := ((if c % 8 = 2 then 64 else 0) + c / 8 % 64) * 81 + c / 65536

theorem nameA : maskOk (((codesOf .A).filter fun c => c % 8 ≠ 4).map nameKey) 0 = true := by decide +kernel
theorem nameB : maskOk (((codesOf .B).filter fun c => c % 8 ≠ 4).map nameKey) 0 = true := by decide +kernel

/-- The cutoff occurs once. -/
theorem lamOnce (m : ModelSet) : ((codesOf m).filter fun c => c % 8 = 4) = [4] := by
  cases m <;> decide +kernel

end Verif
