import Verif.Lemmas.SmeftsimNames

/-! The entries of the SMEFTsim card, one by one. -/

set_option autoImplicit false

namespace Verif

open Spec

/-! ### Every coefficient has its codes -/

theorem tuples_le (op : Op) : tuples op ≤ 81 := by cases op <;> simp [tuples]

theorem mem_wanted {n t : ℕ} (hn : n < 59) (ht : t < tuples (opNo n).op) (hi : indepB (opNo n).op (ixOf (opNo n).op t) = true) :
    n * 81 + t ∈ wanted := by
  unfold wanted
  exact List.mem_flatMap.2 ⟨n, List.mem_range.2 hn, List.mem_map.2 ⟨t, List.mem_filter.2 ⟨List.mem_range.2 ht, hi⟩, rfl⟩⟩

theorem mem_wantedPh {n t : ℕ} (hn : n < 59) (ht : t < tuples (opNo n).op) (hi : indepB (opNo n).op (ixOf (opNo n).op t) = true)
    (hr : realB (opNo n).op (ixOf (opNo n).op t) = false) : n * 81 + t ∈ wantedPh := by
  unfold wantedPh
  exact List.mem_flatMap.2 ⟨n, List.mem_range.2 hn, List.mem_map.2 ⟨t, List.mem_filter.2 ⟨List.mem_range.2 ht, by simp [hi, hr]⟩, rfl⟩⟩

theorem perm_of {l w : List ℕ} {N : ℕ} (h : l.length = N ∧ maskOk l 0 = true) (hw : w.length = N) (hs : l ⊆ w) : l.Perm w :=
  (List.subperm_of_subset (maskOk_nodup _ _ h.2).1 hs).perm_of_length_le (by rw [h.1, hw])

theorem isMag_iff (c : ℕ) : isMag c = true ↔ cKind c ≠ .ph ∧ c % 8 ≠ 4 ∧ cKind c ≠ .lam := by
  have : ∀ n : Fin 8, (decide (n.val < 2) || decide (n.val = 3)) = true ↔ kindOf n.val ≠ .ph ∧ n.val ≠ 4 ∧ kindOf n.val ≠ .lam := by decide
  exact this ⟨c % 8, Nat.mod_lt _ (by decide)⟩

theorem isPh_iff (c : ℕ) : isPh c = true ↔ cKind c = .ph := by
  have : ∀ n : Fin 8, decide (n.val = 2) = true ↔ kindOf n.val = .ph := by decide
  exact this ⟨c % 8, Nat.mod_lt _ (by decide)⟩

theorem ph_ne4 {c : ℕ} (h : cKind c = .ph) : c % 8 ≠ 4 := by
  intro e
  have := (lam_iff c).2 (by omega)
  rw [h] at this; cases this

theorem mag_perm (m : ModelSet) : (((codesOf m).filter isMag).map magKey).Perm wanted := by
  have hs : ((codesOf m).filter isMag).map magKey ⊆ wanted := by
    intro x hx
    obtain ⟨c, hc, rfl⟩ := List.mem_map.1 hx
    obtain ⟨hc, hm⟩ := List.mem_filter.1 hc
    have hv := valid_spec hc ((isMag_iff c).1 hm).2.1
    exact mem_wanted hv.op hv.ix ((indepB_iff _ _).2 hv.coeff.2.2)
  cases m
  · exact perm_of magA len_wanted.1 hs
  · exact perm_of magB len_wanted.1 hs

theorem ph_perm (m : ModelSet) : (((codesOf m).filter isPh).map magKey).Perm wantedPh := by
  have hs : ((codesOf m).filter isPh).map magKey ⊆ wantedPh := by
    intro x hx
    obtain ⟨c, hc, rfl⟩ := List.mem_map.1 hx
    obtain ⟨hc, hm⟩ := List.mem_filter.1 hc
    have hk := (isPh_iff c).1 hm
    have hv := valid_spec hc (ph_ne4 hk)
    refine mem_wantedPh hv.op hv.ix ((indepB_iff _ _).2 hv.coeff.2.2) ?_
    rw [← Bool.not_eq_true]
    intro h
    exact hv.ph hk ((realB_iff _ _).1 h)
  cases m
  · exact perm_of phA len_wanted.2 hs
  · exact perm_of phB len_wanted.2 hs

/-- Operator number and index number of a coefficient. -/
theorem coeff_no {key k : String} {op : Op} {i : List (Fin 3)} (h : IsCoeff key k op i) :
    ∃ n t, n < 59 ∧ t < tuples (opNo n).op ∧ (opNo n).name = k ∧ (opNo n).op = op ∧ ixOf (opNo n).op t = i := by
  obtain ⟨⟨⟨ks, hp, hk⟩, hlen, -⟩, hcons, -⟩ := h
  obtain ⟨n, hn, hname, hop⟩ := simOps_all (op, ks) hp hcons k hk
  obtain ⟨t, ht, hi⟩ := ixOf_surj op hlen
  exact ⟨n, t, List.mem_range.1 hn, by rw [hop]; exact ht, hname, hop, by rw [hop]; exact hi⟩

theorem magKey_inj {c n t : ℕ} (hv : c / 512 % 128 < tuples (cOp c).op) (ht : t < tuples (opNo n).op)
    (h : magKey c = n * 81 + t) : c / 8 % 64 = n ∧ c / 512 % 128 = t := by
  have h1 := tuples_le (cOp c).op
  have h2 := tuples_le (opNo n).op
  unfold magKey at h
  omega

theorem coeff_mag (m : ModelSet) {key k : String} {op : Op} {i : List (Fin 3)} (h : IsCoeff key k op i) :
    ∃ c ∈ codesOf m, isMag c = true ∧ (cOp c).name = k ∧ (cOp c).op = op ∧ cIx c = i := by
  obtain ⟨n, t, hn, ht, hk, hop, hi⟩ := coeff_no h
  have hw := mem_wanted hn ht ((indepB_iff _ _).2 (by rw [hi, hop]; exact h.2.2))
  obtain ⟨c, hc, hck⟩ := List.mem_map.1 ((mag_perm m).mem_iff.2 hw)
  obtain ⟨hc, hm⟩ := List.mem_filter.1 hc
  have hv := valid_spec hc ((isMag_iff c).1 hm).2.1
  obtain ⟨e1, e2⟩ := magKey_inj hv.ix ht hck
  refine ⟨c, hc, hm, ?_, ?_, ?_⟩
  · rw [cOp, e1, hk]
  · rw [cOp, e1, hop]
  · rw [cIx, cOp, e1, e2, hi]

theorem coeff_ph (m : ModelSet) {key k : String} {op : Op} {i : List (Fin 3)} (h : IsCoeff key k op i) (hr : ¬ IsReal op i) :
    ∃ c ∈ codesOf m, isPh c = true ∧ (cOp c).name = k ∧ (cOp c).op = op ∧ cIx c = i := by
  obtain ⟨n, t, hn, ht, hk, hop, hi⟩ := coeff_no h
  have hw := mem_wantedPh hn ht ((indepB_iff _ _).2 (by rw [hi, hop]; exact h.2.2)) (by
    rw [← Bool.not_eq_true, hi, hop]; exact fun h => hr ((realB_iff _ _).1 h))
  obtain ⟨c, hc, hck⟩ := List.mem_map.1 ((ph_perm m).mem_iff.2 hw)
  obtain ⟨hc, hm⟩ := List.mem_filter.1 hc
  have hv := valid_spec hc (ph_ne4 ((isPh_iff c).1 hm))
  obtain ⟨e1, e2⟩ := magKey_inj hv.ix ht hck
  refine ⟨c, hc, hm, ?_, ?_, ?_⟩
  · rw [cOp, e1, hk]
  · rw [cOp, e1, hop]
  · rw [cIx, cOp, e1, e2, hi]

/-! ### The flat list of rows -/

/-- Block, separator in the comment, address and code of every row. -/
def flat (m : ModelSet) : List (String × Bool × List ℕ × ℕ) := (codeTable m).flatMap fun p =>
  (addrCodes p.2.1 p.2.2).map fun q => (p.1, p.2.1.isNone, q.1, q.2)

theorem addrCodes_codes (st : Option ℕ) (l : List ℕ) : (addrCodes st l).map Prod.snd = l := by
  cases st with
  | none => simp [addrCodes, Function.comp_def]
  | some n =>
    simp only [addrCodes, List.map_map]
    exact List.zipIdx_map_fst n l

theorem flat_codes (m : ModelSet) : (flat m).map (fun q => q.2.2.2) = codesOf m := by
  unfold flat codesOf
  rw [List.map_flatMap]
  congr 1
  funext p
  rw [List.map_map]
  exact addrCodes_codes _ _

/-- The row of a member of the flat list. -/
def flatRow (m : ModelSet) (q : String × Bool × List ℕ × ℕ) : CRow := expand m q.2.1 q.2.2.1 q.2.2.2

theorem mem_flat {m : ModelSet} {b : String} {r : CRow} :
    (∃ rs, (b, rs) ∈ setBlocks m ∧ r ∈ rs) ↔ ∃ q ∈ flat m, q.1 = b ∧ r = flatRow m q := by
  rw [setBlocks_eq]
  constructor
  · rintro ⟨rs, hm, hr⟩
    obtain ⟨p, hp, he⟩ := List.mem_map.1 hm
    simp only [Prod.mk.injEq] at he
    obtain ⟨rfl, rfl⟩ := he
    obtain ⟨q, hq, rfl⟩ := List.mem_map.1 hr
    exact ⟨(p.1, p.2.1.isNone, q.1, q.2), List.mem_flatMap.2 ⟨p, hp, List.mem_map.2 ⟨q, hq, rfl⟩⟩, rfl, rfl⟩
  · rintro ⟨q, hq, rfl, rfl⟩
    obtain ⟨p, hp, hq⟩ := List.mem_flatMap.1 hq
    obtain ⟨x, hx, rfl⟩ := List.mem_map.1 hq
    exact ⟨_, List.mem_map.2 ⟨p, hp, rfl⟩, List.mem_map.2 ⟨x, hx, rfl⟩⟩

theorem flat_of_code {m : ModelSet} {c : ℕ} (h : c ∈ codesOf m) : ∃ q ∈ flat m, q.2.2.2 = c := by
  rw [← flat_codes] at h
  obtain ⟨q, hq, rfl⟩ := List.mem_map.1 h
  exact ⟨q, hq, rfl⟩

theorem code_of_flat {m : ModelSet} {q : String × Bool × List ℕ × ℕ} (h : q ∈ flat m) : q.2.2.2 ∈ codesOf m := by
  rw [← flat_codes]; exact List.mem_map.2 ⟨q, h, rfl⟩

theorem kind_ne4 {c : ℕ} (h : c % 8 ≠ 4) {m : ModelSet} (hc : c ∈ codesOf m) : cKind c ≠ .lam := (valid_spec hc h).notLam

/-- The row of a code that is not the cutoff. -/
theorem expand_coeff (m : ModelSet) (sep : Bool) (addr : List ℕ) {c : ℕ} (h : cKind c ≠ .lam) : expand m sep addr c =
    ⟨addr, cKind c, label (cOp c).name (cIx c),
      String.ofList ('#' :: ' ' :: 'c' :: (cOp c).sim m ++ partOf (cOp c).op (cKind c) ++ simIndices sep (cIx' c))⟩ := by
  have he : label (cOp c).name (cIx c) = String.ofList (nameChars (cOp c).chars (cIx c)) := (nameChars_eq _ _).symm
  unfold expand
  rw [he]
  cases hk : cKind c <;> first | rfl | exact absurd hk h

theorem expand_lam (m : ModelSet) (sep : Bool) (addr : List ℕ) {c : ℕ} (h : cKind c = .lam) : expand m sep addr c =
    ⟨addr, .lam, "", String.ofList (lamComment m)⟩ := by
  unfold expand
  rw [h]

theorem haveAll_iff (m : ModelSet) (d : Dict String CNum) :
    HaveAll m d ↔ ∀ key k op i, IsCoeff key k op i → key ∈ Dict.keys d := by
  constructor
  · intro h key k op i hc
    obtain ⟨c, hm, hmag, hk, hop, hi⟩ := coeff_mag m hc
    obtain ⟨q, hq, rfl⟩ := flat_of_code hm
    obtain ⟨rs, hrs, hr⟩ := mem_flat.2 ⟨q, hq, rfl, rfl⟩
    have hl := ((isMag_iff _).1 hmag).2.2
    have := h _ hrs _ hr
    rw [flatRow, expand_coeff _ _ _ hl] at this
    rcases this with e | hkey
    · exact absurd e hl
    · rw [hk, hi] at hkey
      rw [hc.1.2.2]; exact hkey
  · intro h p hp r hr
    obtain ⟨q, hq, -, rfl⟩ := mem_flat.1 ⟨p.2, hp, hr⟩
    by_cases hl : cKind q.2.2.2 = .lam
    · rw [flatRow, expand_lam _ _ _ hl]; exact .inl rfl
    · rw [flatRow, expand_coeff _ _ _ hl]
      have hv := valid_spec (code_of_flat hq) (fun e => hl ((lam_iff _).2 (by omega)))
      exact .inr (h _ _ _ _ hv.coeff)

/-! ### Separators and addresses -/

theorem table_sep (m : ModelSet) : ∀ p ∈ codeTable m, p.2.1.isNone = decide (p.1 ≠ "FRBlock" ∧ p.1 ≠ "NEWCOUP") := by
  cases m <;> decide +kernel

theorem flat_sep {m : ModelSet} {q : String × Bool × List ℕ × ℕ} (h : q ∈ flat m) :
    q.2.1 = decide (q.1 ≠ "FRBlock" ∧ q.1 ≠ "NEWCOUP") := by
  obtain ⟨p, hp, hq⟩ := List.mem_flatMap.1 h
  obtain ⟨x, hx, rfl⟩ := List.mem_map.1 hq
  exact table_sep m p hp

theorem flat_addr {m : ModelSet} {q : String × Bool × List ℕ × ℕ} (h : q ∈ flat m) (hs : q.2.1 = true) :
    q.2.2.1 = (cIx q.2.2.2).map (fun i => i.val + 1) ∧ q.2.2.2 % 8 ≠ 4 ∧ cIx' q.2.2.2 = cIx q.2.2.2 := by
  obtain ⟨⟨b, st, l⟩, hp, hq⟩ := List.mem_flatMap.1 h
  obtain ⟨x, hx, rfl⟩ := List.mem_map.1 hq
  have hf : st.isSome || l.all validFlav := by
    cases m
    · exact List.all_eq_true.1 flavA _ hp
    · exact List.all_eq_true.1 flavB _ hp
  cases st with
  | some n => exact absurd hs (by simp)
  | none =>
    obtain ⟨c, hc, rfl⟩ := List.mem_map.1 hx
    have := List.all_eq_true.1 (by simpa using hf : l.all validFlav = true) c hc
    simp only [validFlav, Bool.and_eq_true, decide_eq_true_eq] at this
    exact ⟨rfl, this.1, this.2.symm⟩

end Verif
