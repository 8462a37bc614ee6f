import Verif.Lemmas.SmeftsimCheck

/-! Filling of the SMEFTsim card. -/

set_option autoImplicit false

namespace Verif

open Spec

/-- The number of a row from the coefficient. -/
noncomputable def CKind.apply (lam : ℝ) (z : CNum) : CKind → CNum
  | .lam => .float lam
  | .abs => .float (‖z.val‖ * lam ^ 2)
  | .absOf => .float ‖z.val * ((lam ^ 2 : ℝ) : ℂ)‖
  | .ph => .float (Complex.arg z.val)
  | .val => match z with
    | .float x => .float (x * lam ^ 2)
    | .complex z => .complex (z * ((lam ^ 2 : ℝ) : ℂ))

/-- The entry of a row whose coefficient is present. -/
noncomputable def CRow.entryD (d : Dict String CNum) (lam : ℝ) (r : CRow) : CEntry :=
  ⟨r.addr, r.kind.apply lam (Dict.getD d r.key (.float 0)), r.comment⟩

/-- The row needs no coefficient or its coefficient is present. -/
def CRow.Have (d : Dict String CNum) (r : CRow) : Prop := r.kind = .lam ∨ r.key ∈ Dict.keys d

theorem entry_ok {d : Dict String CNum} {r : CRow} (lam : ℝ) (h : r.Have d) : r.entry d lam = .ok (r.entryD d lam) := by
  obtain ⟨a, k, key, com⟩ := r
  rcases h with rfl | h
  · rfl
  · obtain ⟨z, hz⟩ := Option.isSome_iff_exists.1 (Dict.find_isSome_iff.2 h)
    change Dict.find d key = some z at hz
    have hg : Dict.get d key = .ok z := Dict.get_of_find hz
    cases k <;> simp only [CRow.entry, CRow.num, CRow.entryD, Dict.getD, hz, hg, CKind.apply, Option.getD_some] <;>
      first
      | rfl
      | (cases z <;> rfl)

theorem entry_err {d : Dict String CNum} {r : CRow} (lam : ℝ) (h : ¬ r.Have d) : r.entry d lam = .error .keyError := by
  obtain ⟨a, k, key, com⟩ := r
  simp only [CRow.Have, not_or] at h
  have hg : Dict.get d key = .error .keyError := Dict.get_error_iff.2 ⟨Dict.find_eq_none_iff.2 h.2, rfl⟩
  cases k <;> simp only [CRow.entry, CRow.num, hg] <;> first | rfl | exact absurd rfl h.1

theorem rows_ok {d : Dict String CNum} (lam : ℝ) : ∀ {rs : List CRow}, (∀ r ∈ rs, r.Have d) →
    rs.mapM (CRow.entry d lam) = .ok (rs.map (CRow.entryD d lam))
  | [], _ => rfl
  | r :: rs, h => by
    rw [List.mapM_cons, entry_ok lam (h r List.mem_cons_self), rows_ok lam fun x hx => h x (List.mem_cons_of_mem _ hx)]
    rfl

theorem rows_err {d : Dict String CNum} (lam : ℝ) : ∀ {rs : List CRow}, (¬ ∀ r ∈ rs, r.Have d) →
    rs.mapM (CRow.entry d lam) = .error .keyError
  | [], h => absurd (by simp) h
  | r :: rs, h => by
    rw [List.mapM_cons]
    by_cases hr : r.Have d
    · rw [entry_ok lam hr, rows_err lam fun hx => h fun x hm => ?_]
      · rfl
      · rcases List.mem_cons.1 hm with rfl | hm
        · exact hr
        · exact hx x hm
    · rw [entry_err lam hr]; rfl

theorem fillBlocks_ok {d : Dict String CNum} (lam : ℝ) : ∀ {l : List (String × List CRow)} (card : Card),
    (∀ p ∈ l, ∀ r ∈ p.2, r.Have d) →
    fillBlocks d lam card l = .ok (Dict.upd card (l.map fun p => (p.1, some (p.2.map (CRow.entryD d lam)))))
  | [], _, _ => rfl
  | (b, rs) :: l, card, h => by
    rw [fillBlocks, rows_ok lam (h _ List.mem_cons_self)]
    exact fillBlocks_ok lam _ fun p hp => h p (List.mem_cons_of_mem _ hp)

theorem fillBlocks_err {d : Dict String CNum} (lam : ℝ) : ∀ {l : List (String × List CRow)} (card : Card),
    (¬ ∀ p ∈ l, ∀ r ∈ p.2, r.Have d) → fillBlocks d lam card l = .error .keyError
  | [], _, h => absurd (by simp) h
  | (b, rs) :: l, card, h => by
    rw [fillBlocks]
    by_cases hr : ∀ r ∈ rs, r.Have d
    · rw [rows_ok lam hr]
      refine fillBlocks_err lam _ fun hx => h fun p hm => ?_
      rcases List.mem_cons.1 hm with rfl | hm
      · exact hr
      · exact hx p hm
    · rw [rows_err lam hr]; rfl

/-! ### Overwriting all entries of a dictionary -/

theorem put_mid {κ ν : Type} [DecidableEq κ] (done rest : Dict κ ν) (k : κ) (u v : ν) (h : k ∉ Dict.keys done) :
    Dict.put (done ++ (k, u) :: rest) k v = done ++ (k, v) :: rest := by
  induction done with
  | nil => simp [Dict.put]
  | cons p done ih =>
    obtain ⟨a, w⟩ := p
    simp only [Dict.keys_cons, List.mem_cons, not_or] at h
    simp only [List.cons_append, Dict.put]
    rw [if_neg (fun e => h.1 e.symm), ih h.2]

theorem upd_same {κ ν : Type} [DecidableEq κ] (e : Dict κ ν) : ∀ (done card : Dict κ ν), Dict.keys card = Dict.keys e →
    Dict.WF (done ++ e) → Dict.upd (done ++ card) e = done ++ e := by
  induction e with
  | nil =>
    intro done card hk _
    cases card with
    | nil => rfl
    | cons p card => exact absurd hk (by simp)
  | cons p e ih =>
    intro done card hk hw
    obtain ⟨k, v⟩ := p
    cases card with
    | nil => exact absurd hk (by simp)
    | cons q card =>
      obtain ⟨k', u⟩ := q
      simp only [Dict.keys_cons, List.cons.injEq] at hk
      obtain ⟨rfl, hk⟩ := hk
      have hn : k' ∉ Dict.keys done := by
        intro hm
        unfold Dict.WF at hw
        rw [Dict.keys_append, Dict.keys_cons] at hw
        exact List.disjoint_of_nodup_append hw hm List.mem_cons_self
      rw [Dict.upd_cons]
      dsimp only
      rw [put_mid done card k' u v hn]
      have := ih (done ++ [(k', v)]) card hk (by simpa using hw)
      simpa using this

/-! ### The whole card -/

theorem init_keys (m : ModelSet) : Dict.keys (initializeCard m) = (codeTable m).map Prod.fst := by
  cases m <;> rfl

theorem init_nodup (m : ModelSet) : ((codeTable m).map Prod.fst).Nodup := by
  rw [← init_keys]
  cases m <;> decide +kernel

/-- The W mass in set A. -/
noncomputable def mwRows : ModelSet → Scheme → List CEntry
  | .A, .mw => [mwRow]
  | _, _ => []

/-- The filled card. -/
noncomputable def fullCard (m : ModelSet) (d : Dict String CNum) (lam : ℝ) (s : Scheme) : Card :=
  (setBlocks m).map fun p => (p.1, some (p.2.map (CRow.entryD d lam) ++ if p.1 = "FRBlock" then mwRows m s else []))

/-- All coefficients of all rows are present. -/
def HaveAll (m : ModelSet) (d : Dict String CNum) : Prop := ∀ p ∈ setBlocks m, ∀ r ∈ p.2, r.Have d

theorem blocks_keys (m : ModelSet) : (setBlocks m).map Prod.fst = (codeTable m).map Prod.fst := by
  rw [setBlocks_eq, List.map_map]; rfl

theorem frA : ∃ rest, blocksA = ("FRBlock", codeRows .A (some 1) (codesA_FRBlock_1 ++ codesA_FRBlock_2 ++ codesA_FRBlock_3 ++
      codesA_FRBlock_4 ++ codesA_FRBlock_5 ++ codesA_FRBlock_6 ++ codesA_FRBlock_7 ++ codesA_FRBlock_8 ++ codesA_FRBlock_9 ++
      codesA_FRBlock_10)) :: rest := by
  rw [blocksA_eq]
  exact ⟨_, rfl⟩

theorem frA_length : (codesA_FRBlock_1 ++ codesA_FRBlock_2 ++ codesA_FRBlock_3 ++
      codesA_FRBlock_4 ++ codesA_FRBlock_5 ++ codesA_FRBlock_6 ++ codesA_FRBlock_7 ++ codesA_FRBlock_8 ++ codesA_FRBlock_9 ++
      codesA_FRBlock_10).length = 1474 := by decide +kernel

theorem codeRows_length (m : ModelSet) (st : Option ℕ) (l : List ℕ) : (codeRows m st l).length = l.length := by
  cases st <;> simp [codeRows, addrCodes]

theorem fill_ok {m : ModelSet} {d : Dict String CNum} (lam : ℝ) (s : Scheme) (h : HaveAll m d) :
    cardFill (initializeCard m) d m lam s = .ok (fullCard m d lam s) := by
  have hk : Dict.keys (initializeCard m) = Dict.keys ((setBlocks m).map fun p =>
      (p.1, some (p.2.map (CRow.entryD d lam)))) := by
    rw [init_keys, ← blocks_keys]; simp [Dict.keys, Function.comp_def]
  have hw : Dict.WF ((setBlocks m).map fun p => (p.1, some (p.2.map (CRow.entryD d lam)))) := by
    unfold Dict.WF; rw [← hk, init_keys]; exact init_nodup m
  have hf : fillBlocks d lam (initializeCard m) (setBlocks m) =
      .ok ((setBlocks m).map fun p => (p.1, some (p.2.map (CRow.entryD d lam)))) := by
    rw [fillBlocks_ok lam _ h]
    congr 1
    exact upd_same _ [] _ hk hw
  unfold cardFill
  rw [hf]
  have hplain : mwRows m s = [] → fullCard m d lam s = (setBlocks m).map fun p => (p.1, some (p.2.map (CRow.entryD d lam))) := by
    intro h0
    unfold fullCard
    rw [h0]
    simp
  cases m with
  | B => exact (congrArg Except.ok (hplain rfl)).symm
  | A =>
    cases s with
    | alpha => exact (congrArg Except.ok (hplain rfl)).symm
    | mw =>
      obtain ⟨rest, hr⟩ := frA
      have hn : ∀ p ∈ rest, p.1 ≠ "FRBlock" := by
        have := init_nodup .A
        rw [← blocks_keys] at this
        change (blocksA.map Prod.fst).Nodup at this
        rw [hr, List.map_cons, List.nodup_cons] at this
        intro p hp e
        exact this.1 (List.mem_map.2 ⟨p, hp, e⟩)
      unfold fullCard
      change (do
        let card ← Except.ok (List.map (fun p => (p.1, some (p.2.map (CRow.entryD d lam)))) blocksA)
        match ← Dict.get card "FRBlock" with
        | some es => return Dict.put card "FRBlock" (some (es.insertIdx (min 1474 es.length) mwRow))
        | none => .error .keyError) = Except.ok (List.map _ blocksA)
      rw [hr, List.map_cons, List.map_cons]
      rw [ok_bind]
      have hg : ∀ (v : Option (List CEntry)) (r : Card), Dict.get (("FRBlock", v) :: r) "FRBlock" = .ok v := fun v r =>
        Dict.get_of_find (by rw [Dict.find_cons, if_pos rfl])
      rw [hg, ok_bind]
      dsimp only
      have hput : ∀ (u v : Option (List CEntry)) (r : Card), Dict.put (("FRBlock", u) :: r) "FRBlock" v = ("FRBlock", v) :: r :=
        fun u v r => put_mid [] r "FRBlock" u v (by simp)
      rw [hput]
      simp only [pure, Except.pure]
      refine congrArg Except.ok ?_
      rw [List.cons.injEq]
      constructor
      · rw [List.length_map, codeRows_length, frA_length]
        rw [if_pos trivial]
        refine congrArg (fun x => ("FRBlock", some x)) ?_
        rw [min_self]
        have hl : (List.map (CRow.entryD d lam) (codeRows .A (some 1) (codesA_FRBlock_1 ++ codesA_FRBlock_2 ++ codesA_FRBlock_3 ++
          codesA_FRBlock_4 ++ codesA_FRBlock_5 ++ codesA_FRBlock_6 ++ codesA_FRBlock_7 ++ codesA_FRBlock_8 ++ codesA_FRBlock_9 ++
          codesA_FRBlock_10))).length = 1474 := by rw [List.length_map, codeRows_length, frA_length]
        rw [← hl]
        exact List.insertIdx_length_self
      · refine List.map_congr_left fun p hp => ?_
        rw [if_neg (hn p hp), List.append_nil]

theorem fill_err {m : ModelSet} {d : Dict String CNum} (lam : ℝ) (s : Scheme) (h : ¬ HaveAll m d) :
    cardFill (initializeCard m) d m lam s = .error .keyError := by
  unfold cardFill
  rw [fillBlocks_err lam _ h]
  rfl

end Verif
