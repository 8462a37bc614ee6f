import Verif.Lemmas.SmeftsimFill
import Verif.Props.Symm

/-! Codes of the SMEFTsim card and the coefficients and names they stand for. -/

set_option autoImplicit false

namespace Verif

open Spec

/-! ### Operators -/

theorem simOps_isOp : ∀ o ∈ simOps, opOf (String.ofList o.chars) = some o.op ∧ o.op.Conserving := by decide +kernel

theorem simOps_all : ∀ p ∈ opTable, p.1.Conserving → ∀ k ∈ p.2, ∃ n ∈ List.range 59, String.ofList (opNo n).chars = k ∧
    (opNo n).op = p.1 := by decide +kernel

theorem simOps_length : simOps.length = 59 := by decide +kernel

theorem opNo_mem {n : ℕ} (h : n < 59) : opNo n ∈ simOps := by
  unfold opNo
  rw [List.getD_eq_getElem _ _ (by rw [simOps_length]; exact h)]
  exact List.getElem_mem _

/-- Warsaw basis name of an operator. -/
def SOp.name (o : SOp) : String := String.ofList o.chars

theorem opNo_isOp {n : ℕ} (h : n < 59) : IsOp (opNo n).name (opNo n).op ∧ (opNo n).op.Conserving :=
  ⟨opOf_isOp (simOps_isOp _ (opNo_mem h)).1, (simOps_isOp _ (opNo_mem h)).2⟩

theorem opNo_names : ((List.range 59).map fun n => (opNo n).chars).Nodup := by decide +kernel

theorem opNo_inj {n n' : ℕ} (h : n < 59) (h' : n' < 59) (e : (opNo n).name = (opNo n').name) : n = n' := by
  have hc : (opNo n).chars = (opNo n').chars := by
    have := congrArg String.toList e
    rwa [SOp.name, SOp.name, String.toList_ofList, String.toList_ofList] at this
  exact List.inj_on_of_nodup_map opNo_names (List.mem_range.2 h) (List.mem_range.2 h') hc

theorem nameChars_eq (l : List Char) (i : List (Fin 3)) : String.ofList (nameChars l i) = label (String.ofList l) i := by
  cases i with
  | nil => rfl
  | cons i is => simp [nameChars, label]

/-! ### Flavour indices -/

theorem ixOf_length (op : Op) (n : ℕ) : (ixOf op n).length = op.rank := by
  cases op <;> rfl

theorem ixOf_surj (op : Op) {i : List (Fin 3)} (h : i.length = op.rank) : ∃ n, n < tuples op ∧ ixOf op n = i := by
  cases op with
  | boson =>
    obtain rfl := List.length_eq_zero_iff.1 h
    exact ⟨0, by decide, rfl⟩
  | two x y =>
    match i, h with
    | [p, r], _ =>
      have : ∀ p r : Fin 3, 3 * p.val + r.val < 9 ∧ Fin.ofNat 3 ((3 * p.val + r.val) / 3) = p ∧
        Fin.ofNat 3 (3 * p.val + r.val) = r := by decide
      obtain ⟨h1, h2, h3⟩ := this p r
      exact ⟨3 * p.val + r.val, h1, by simp only [ixOf]; rw [h2, h3]⟩
  | four x y z w =>
    match i, h with
    | [p, r, s, t], _ =>
      have : ∀ p r s t : Fin 3, 27 * p.val + 9 * r.val + 3 * s.val + t.val < 81 ∧
        Fin.ofNat 3 ((27 * p.val + 9 * r.val + 3 * s.val + t.val) / 27) = p ∧
        Fin.ofNat 3 ((27 * p.val + 9 * r.val + 3 * s.val + t.val) / 9) = r ∧
        Fin.ofNat 3 ((27 * p.val + 9 * r.val + 3 * s.val + t.val) / 3) = s ∧
        Fin.ofNat 3 (27 * p.val + 9 * r.val + 3 * s.val + t.val) = t := by decide
      obtain ⟨h1, h2, h3, h4, h5⟩ := this p r s t
      exact ⟨_, h1, by simp only [ixOf]; rw [h2, h3, h4, h5]⟩

theorem ixOf_inj (op : Op) {n n' : ℕ} (h : n < tuples op) (h' : n' < tuples op) (e : ixOf op n = ixOf op n') : n = n' := by
  cases op with
  | boson => simp only [tuples] at h h'; omega
  | two x y =>
    have key : ∀ n : Fin 9, n.val = 3 * (Fin.ofNat 3 (n.val / 3)).val + (Fin.ofNat 3 n.val).val := by decide
    simp only [ixOf, List.cons.injEq, and_true] at e
    have h1 := key ⟨n, h⟩
    have h2 := key ⟨n', h'⟩
    dsimp only at h1 h2
    rw [h1, h2, e.1, e.2]
  | four x y z w =>
    have key : ∀ n : Fin 81, n.val = 27 * (Fin.ofNat 3 (n.val / 27)).val + 9 * (Fin.ofNat 3 (n.val / 9)).val +
      3 * (Fin.ofNat 3 (n.val / 3)).val + (Fin.ofNat 3 n.val).val := by decide
    simp only [ixOf, List.cons.injEq, and_true] at e
    have h1 := key ⟨n, h⟩
    have h2 := key ⟨n', h'⟩
    dsimp only at h1 h2
    rw [h1, h2, e.1, e.2.1, e.2.2.1, e.2.2.2]

/-! ### Independent entries are different -/

theorem indep_unique {op : Op} {i j : List (Fin 3)} (hi : Indep op i) (hj : Indep op j) (h : SameEntry op i j) : i = j := by
  obtain ⟨h1, h2, h⟩ := h
  cases op with
  | boson =>
    rw [List.length_eq_zero_iff.1 h1, List.length_eq_zero_iff.1 h2]
  | two x y =>
    match i, j, h1, h2 with
    | [p, r], [p', r'], _, _ =>
      by_contra hne
      have hne' : (p', r') ≠ (p, r) := by
        intro e; apply hne; simp only [Prod.mk.injEq] at e; rw [e.1, e.2]
      let b : Ix2 → ℂ := fun k => if k = (p, r) then 1 else 0
      cases hc : cls2 x y with
      | none =>
        have := h (fun l => b (l.headD 0, l.tail.headD 0)) (by intro c hc'; rw [hc] at hc'; cases hc')
        simp [b, hne'] at this
      | some c =>
        have hcls : c = .herm ∨ c = .symm := by
          unfold cls2 at hc; split at hc
          · cases hc; exact .inl rfl
          · split at hc
            · cases hc; exact .inr rfl
            · cases hc
        have hr : Rel2 c (sym2 c b) := by
          rcases hcls with rfl | rfl
          · exact (C29_matrix b).1
          · exact (C29_matrix b).2
        have := h (fun l => sym2 c b (l.headD 0, l.tail.headD 0)) (by
          intro c' hc'
          rw [hc] at hc'; cases hc'
          exact hr)
        simp only [List.headD_cons, List.tail_cons] at this
        rw [C31_matrix_free c b _ (hi c hc), C31_matrix_free c b _ (hj c hc)] at this
        simp [b, hne'] at this
  | four x y z w =>
    match i, j, h1, h2 with
    | [p, r, s, t], [p', r', s', t'], _, _ =>
      by_contra hne
      have hne' : (p', r', s', t') ≠ (p, r, s, t) := by
        intro e; apply hne; simp only [Prod.mk.injEq] at e; rw [e.1, e.2.1, e.2.2.1, e.2.2.2]
      let b : Ix4 → ℂ := fun k => if k = (p, r, s, t) then 1 else 0
      cases hc : cls4 x y z w with
      | none =>
        have := h (fun l => b (l.headD 0, l.tail.headD 0, l.tail.tail.headD 0, l.tail.tail.tail.headD 0))
          (by intro c hc'; rw [hc] at hc'; cases hc')
        simp only [List.headD_cons, List.tail_cons, b, if_pos, if_neg hne'] at this
        exact one_ne_zero this
      | some c =>
        have hr : Rel4 c (sym4 c b) := by
          have h29 := C29_tensor b
          cases c with
          | herm => trivial
          | symm => trivial
          | twoIdentical => exact h29.1
          | twoDifferent => exact h29.2.1
          | singlet => exact h29.2.2.1
          | qque => exact h29.2.2.2.1
          | qqql => exact h29.2.2.2.2
        have := h (fun l => sym4 c b (l.headD 0, l.tail.headD 0, l.tail.tail.headD 0, l.tail.tail.tail.headD 0)) (by
          intro c' hc'
          rw [hc] at hc'; cases hc'
          exact hr)
        simp only [List.headD_cons, List.tail_cons] at this
        rw [C31_tensor_free c b _ (hi c hc), C31_tensor_free c b _ (hj c hc)] at this
        simp only [b, if_pos, if_neg hne'] at this
        split_ifs at this <;> simp at this

theorem SameEntry.symm {op : Op} {i j : List (Fin 3)} (h : SameEntry op i j) : SameEntry op j i :=
  ⟨h.2.1, h.1, fun C hC => (h.2.2 C hC).symm⟩

theorem SameEntry.trans {op : Op} {i j k : List (Fin 3)} (h : SameEntry op i j) (h' : SameEntry op j k) : SameEntry op i k :=
  ⟨h.1, h'.2.1, fun C hC => (h.2.2 C hC).trans (h'.2.2 C hC)⟩

/-! ### Valid codes -/

/-- What a valid code stands for. -/
structure Valid (c : ℕ) : Prop where
  op : c / 8 % 64 < 59
  ix : c / 512 % 128 < tuples (cOp c).op
  ix' : c / 65536 < tuples (cOp c).op
  coeff : IsCoeff (label (cOp c).name (cIx c)) (cOp c).name (cOp c).op (cIx c)
  same : SameEntry (cOp c).op (cIx c) (cIx' c)
  ph : cKind c = .ph → ¬ IsReal (cOp c).op (cIx c)
  val : cKind c = .val → IsReal (cOp c).op (cIx c)
  abs : cKind c = .abs ∨ cKind c = .absOf → (cOp c).op ≠ .boson
  notLam : cKind c ≠ .lam

theorem lam_iff (c : ℕ) : cKind c = .lam ↔ 4 ≤ c % 8 := by
  unfold cKind
  have : ∀ n : Fin 8, kindOf n.val = .lam ↔ 4 ≤ n.val := by decide
  exact this ⟨c % 8, Nat.mod_lt _ (by decide)⟩

theorem valid_spec {m : ModelSet} {c : ℕ} (h : c ∈ codesOf m) (hl : c % 8 ≠ 4) : Valid c := by
  have hv := valid_of_mem h
  unfold validCode at hv
  simp only [hl, decide_false, Bool.false_or, Bool.and_eq_true, decide_eq_true_eq] at hv
  obtain ⟨⟨⟨⟨⟨h1, h2⟩, h3⟩, h4⟩, h5⟩, h6⟩ := hv
  have hlen : (cIx c).length = (cOp c).op.rank := ixOf_length _ _
  refine ⟨h1, h2, h3, ⟨⟨(opNo_isOp h1).1, hlen, rfl⟩, (opNo_isOp h1).2, (indepB_iff _ _).1 h4⟩,
    sameB_sound hlen h5, ?_, ?_, ?_, ?_⟩
  · intro hk
    rw [hk] at h6
    intro hr
    rw [← realB_iff] at hr
    simp [hr] at h6
  · intro hk
    rw [hk] at h6
    exact (realB_iff _ _).1 h6
  · rintro (hk | hk) <;>
    · rw [hk] at h6
      simpa using h6
  · intro hk
    rw [hk] at h6
    exact absurd h6 (by simp)

end Verif
